/-
Specification of name matching in tables of parameters and headers.
-/
import Verif.Spec.Nocase

namespace Spec

/-- `mid` is `s` without the ASCII white space at its two ends. -/
def AsciiTrimmed (s mid : Bytes) : Prop :=
  ∃ pre post, s = pre ++ mid ++ post ∧
    (∀ c ∈ pre, c ∈ asciiWhitespace) ∧ (∀ c ∈ post, c ∈ asciiWhitespace) ∧
    (∀ c ∈ mid.head?, c ∉ asciiWhitespace) ∧ (∀ c ∈ mid.getLast?, c ∉ asciiWhitespace)

/-- Code points with the Unicode property White_Space. -/
def unicodeWhitespace : List Nat :=
  [0x09, 0x0A, 0x0B, 0x0C, 0x0D, 0x20, 0x85, 0xA0, 0x1680, 0x2000, 0x2001, 0x2002, 0x2003, 0x2004,
   0x2005, 0x2006, 0x2007, 0x2008, 0x2009, 0x200A, 0x2028, 0x2029, 0x202F, 0x205F, 0x3000]

/-- The UTF-8 encoding of a code point below 0x10000. -/
def utf8Encode (cp : Nat) : Bytes :=
  if cp < 0x80 then [UInt8.ofNat cp]
  else if cp < 0x800 then [UInt8.ofNat (0xC0 + cp / 64), UInt8.ofNat (0x80 + cp % 64)]
  else [UInt8.ofNat (0xE0 + cp / 4096), UInt8.ofNat (0x80 + cp / 64 % 64), UInt8.ofNat (0x80 + cp % 64)]

/-- `w` is the encoding of one white space character. -/
def SpaceChar (w : Bytes) : Prop := ∃ cp ∈ unicodeWhitespace, w = utf8Encode cp

/-- `mid` is `s` without the white space characters at its two ends. -/
def UnicodeTrimmed (s mid : Bytes) : Prop :=
  ∃ pre post : List Bytes, s = pre.flatten ++ mid ++ post.flatten ∧
    (∀ w ∈ pre, SpaceChar w) ∧ (∀ w ∈ post, SpaceChar w) ∧
    (∀ w, SpaceChar w → ¬ w <+: mid) ∧ (∀ w, SpaceChar w → ¬ w <:+ mid)

/-- The stored name `name` answers the lookup `key`: equal up to ASCII case after trimming. -/
def NameMatches (name key : Bytes) : Prop := ∃ mid, AsciiTrimmed name mid ∧ EqNocase mid key

/-- The same, trimming Unicode white space and ignoring NUL bytes in the stored name. -/
def NameMatchesNozero (name key : Bytes) : Prop :=
  ∃ mid, UnicodeTrimmed name mid ∧ EqNocase (withoutNul mid) key

/-- `r` is the first element of `l` that satisfies `p` (`none`: there is none). -/
def FirstMatch {α : Type} (p : α → Prop) (l : List α) (r : Option α) : Prop :=
  match r with
  | none => ∀ x ∈ l, ¬ p x
  | some x => ∃ before after, l = before ++ x :: after ∧ p x ∧ ∀ y ∈ before, ¬ p y

end Spec

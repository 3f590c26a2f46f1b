/-
Specification: UTF-8 text in the relaxed form that admits overlong encodings, and how a byte string is
read as such text. Written without reference to the decoder's tables.
-/
import Verif.Basic

namespace Spec.Utf8

/-- A continuation byte, 10xxxxxx. -/
def Cont (c : UInt8) : Prop := 0x80 ≤ c.toNat ∧ c.toNat ≤ 0xBF

/-- The bytes encode the code point. Overlong forms are admitted, surrogates and code points above
U+10FFFF are not. -/
inductive IsChar : Bytes → Nat → Prop
  | one {a} : a.toNat < 0x80 → IsChar [a] a.toNat
  | two {a b v} : 0xC0 ≤ a.toNat → a.toNat ≤ 0xDF → Cont b →
      v = (a.toNat - 0xC0) * 64 + (b.toNat - 0x80) → IsChar [a, b] v
  | three {a b c v} : 0xE0 ≤ a.toNat → a.toNat ≤ 0xEF → Cont b → Cont c →
      v = (a.toNat - 0xE0) * 4096 + (b.toNat - 0x80) * 64 + (c.toNat - 0x80) →
      ¬ (0xD800 ≤ v ∧ v ≤ 0xDFFF) → IsChar [a, b, c] v
  | four {a b c d v} : 0xF0 ≤ a.toNat → a.toNat ≤ 0xF7 → Cont b → Cont c → Cont d →
      v = (a.toNat - 0xF0) * 262144 + (b.toNat - 0x80) * 4096 + (c.toNat - 0x80) * 64 + (d.toNat - 0x80) →
      v ≤ 0x10FFFF → IsChar [a, b, c, d] v

/-- The bytes are the beginning of a character that needs more bytes. -/
def Unfinished (p : Bytes) : Prop := p ≠ [] ∧ ∃ ext v, ext ≠ [] ∧ IsChar (p ++ ext) v

/-- What is found while reading: a character written in `len` bytes, something that is not UTF-8, or an
unfinished character of `len` bytes at the end of the text. -/
inductive Item where
  | char (len cp : Nat) | bad | cut (len : Nat)
  deriving DecidableEq

/-- `Reads s items`: the text read from left to right. A byte that does not continue the character
begun before it ends that character as bad and is read anew. -/
inductive Reads : Bytes → List Item → Prop
  | nil : Reads [] []
  | char {s v rest items} : IsChar s v → Reads rest items → Reads (s ++ rest) (.char s.length v :: items)
  | badStart {c rest items} : (¬ ∃ v, IsChar [c] v) → ¬ Unfinished [c] → Reads rest items →
      Reads (c :: rest) (.bad :: items)
  | broken {p c rest items} : Unfinished p → (¬ ∃ v, IsChar (p ++ [c]) v) → ¬ Unfinished (p ++ [c]) →
      Reads (c :: rest) items → Reads (p ++ c :: rest) (.bad :: items)
  | cut {p} : Unfinished p → Reads p [.cut p.length]

/-- The number of bytes a code point takes in proper UTF-8. -/
def size (v : Nat) : Nat := if v < 0x80 then 1 else if v < 0x800 then 2 else if v < 0x10000 then 3 else 4

/-- The bytes written for an item, given the single-byte form of wide characters and the replacement
byte. -/
def Item.out (fit : Nat → UInt8) (replacement : UInt8) : Item → Bytes
  | .char _ cp => [if cp < 0x100 then UInt8.ofNat cp else fit cp]
  | .bad => [replacement]
  | .cut n => List.replicate (n - 1) replacement

/-- The proper UTF-8 encoding of a code point. -/
def encode (v : Nat) : Bytes :=
  if v < 0x80 then [UInt8.ofNat v]
  else if v < 0x800 then [UInt8.ofNat (0xC0 + v / 64), UInt8.ofNat (0x80 + v % 64)]
  else if v < 0x10000 then
    [UInt8.ofNat (0xE0 + v / 4096), UInt8.ofNat (0x80 + v / 64 % 64), UInt8.ofNat (0x80 + v % 64)]
  else [UInt8.ofNat (0xF0 + v / 262144), UInt8.ofNat (0x80 + v / 4096 % 64), UInt8.ofNat (0x80 + v / 64 % 64),
    UInt8.ofNat (0x80 + v % 64)]

/-- A Unicode scalar value. -/
def Scalar (v : Nat) : Prop := v ≤ 0x10FFFF ∧ ¬ (0xD800 ≤ v ∧ v ≤ 0xDFFF)

end Spec.Utf8

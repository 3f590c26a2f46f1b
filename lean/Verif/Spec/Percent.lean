/-
Specification of percent-decoding of URI components and form fields, independent of the model.
-/
import Verif.Spec.Numeral

namespace Spec.Percent
open Spec

/-- The choices a decoder makes (invalid escapes are either kept or lose their percent sign). -/
structure Opts where
  /-- '+' stands for a space -/
  plusIsSpace : Bool
  /-- decoding stops at a raw NUL -/
  rawNulStops : Bool
  /-- decoding stops at an escape that denotes NUL -/
  escNulStops : Bool
  /-- `%uXXXX` escapes are recognised -/
  uEscapes : Bool
  /-- the percent sign of an invalid escape is dropped -/
  dropBadPercent : Bool
  /-- the byte used for the character with the given two-byte code (high byte not zero) -/
  bestfit : UInt8 → UInt8 → UInt8

/-- Anomalies noted while decoding. -/
inductive Note where
  | invalid | escapedNul | rawNul | overlongU | halfFullWidth
  deriving DecidableEq

/-- Two hexadecimal digits come next. -/
def Hex2 (s : Bytes) : Prop := ∃ x y r, s = x :: y :: r ∧ IsHexDigit x ∧ IsHexDigit y

/-- The letter u comes next. -/
def LetterU (s : Bytes) : Prop := ∃ u r, s = u :: r ∧ (u = 117 ∨ u = 85)

/-- The letter u and four hexadecimal digits come next. -/
def UHex4 (s : Bytes) : Prop :=
  ∃ u a b c d r, s = u :: a :: b :: c :: d :: r ∧ (u = 117 ∨ u = 85) ∧
    IsHexDigit a ∧ IsHexDigit b ∧ IsHexDigit c ∧ IsHexDigit d

/-- The byte written with two hexadecimal digits. -/
def hexByte (x y : UInt8) : UInt8 := UInt8.ofNat (16 * digitValue x + digitValue y)

/-- The byte a `%uXXYY` escape denotes. -/
def uByte (o : Opts) (hi lo : UInt8) : UInt8 := if hi = 0 then lo else o.bestfit hi lo

/-- The anomalies of a `%uXXYY` escape. -/
def uNotes (o : Opts) (hi lo : UInt8) : List Note :=
  (if hi = 0 then [.overlongU] else if hi = 0xff ∧ lo.toNat ≤ 0xef then [.halfFullWidth] else []) ++
  (if uByte o hi lo = 0 then [.escapedNul] else [])

/-- `Decodes o s t notes`: the text `s` decodes to `t`, with these anomalies. -/
inductive Decodes (o : Opts) : Bytes → Bytes → List Note → Prop
  | nil : Decodes o [] [] []
  /-- any byte but '%', '+' and NUL stands for itself -/
  | plain {c s t n} : c ≠ 37 → c ≠ 43 → c ≠ 0 → Decodes o s t n → Decodes o (c :: s) (c :: t) n
  | plus {s t n} : Decodes o s t n → Decodes o (43 :: s) ((if o.plusIsSpace then 32 else 43) :: t) n
  | rawNul {s t n} : o.rawNulStops = false → Decodes o s t n →
      Decodes o (0 :: s) (0 :: t) (.rawNul :: n)
  | rawNulStop {s} : o.rawNulStops = true → Decodes o (0 :: s) [] [.rawNul]
  /-- `%XX` -/
  | hex {x y s t n} : IsHexDigit x → IsHexDigit y → hexByte x y ≠ 0 → Decodes o s t n →
      Decodes o (37 :: x :: y :: s) (hexByte x y :: t) n
  | hexNul {x y s t n} : IsHexDigit x → IsHexDigit y → hexByte x y = 0 → o.escNulStops = false →
      Decodes o s t n → Decodes o (37 :: x :: y :: s) (0 :: t) (.escapedNul :: n)
  | hexNulStop {x y s} : IsHexDigit x → IsHexDigit y → hexByte x y = 0 → o.escNulStops = true →
      Decodes o (37 :: x :: y :: s) [] [.escapedNul]
  /-- `%uXXXX` -/
  | u {u a b c d s t n} : o.uEscapes = true → (u = 117 ∨ u = 85) →
      IsHexDigit a → IsHexDigit b → IsHexDigit c → IsHexDigit d →
      (uByte o (hexByte a b) (hexByte c d) = 0 → o.escNulStops = false) → Decodes o s t n →
      Decodes o (37 :: u :: a :: b :: c :: d :: s) (uByte o (hexByte a b) (hexByte c d) :: t)
        (uNotes o (hexByte a b) (hexByte c d) ++ n)
  | uNulStop {u a b c d s} : o.uEscapes = true → (u = 117 ∨ u = 85) →
      IsHexDigit a → IsHexDigit b → IsHexDigit c → IsHexDigit d →
      uByte o (hexByte a b) (hexByte c d) = 0 → o.escNulStops = true →
      Decodes o (37 :: u :: a :: b :: c :: d :: s) [] (uNotes o (hexByte a b) (hexByte c d))
  /-- a percent sign before the letter u is an ordinary byte when `%u` escapes are not recognised -/
  | literalU {s t n} : o.uEscapes = false → LetterU s → Decodes o s t n →
      Decodes o (37 :: s) (37 :: t) n
  /-- a percent sign that starts no escape -/
  | bad {s t n} : ¬ Hex2 s → (o.uEscapes = true → ¬ UHex4 s) → (o.uEscapes = false → ¬ LetterU s) →
      Decodes o s t n →
      Decodes o (37 :: s) (if o.dropBadPercent then t else 37 :: t) (.invalid :: n)

/-- `Encodes s e`: `e` is a percent-encoding of `s`: any byte may be written as '%' and two hexadecimal
digits of either case, and any byte but '%', '+' and NUL may be written as itself. -/
inductive Encodes : Bytes → Bytes → Prop
  | nil : Encodes [] []
  | cons {c x y s e} : IsHexDigit x → IsHexDigit y → c.toNat = 16 * digitValue x + digitValue y →
      Encodes s e → Encodes (c :: s) (37 :: x :: y :: e)
  | lit {c s e} : c ≠ 37 → c ≠ 43 → c ≠ 0 → Encodes s e → Encodes (c :: s) (c :: e)

end Spec.Percent

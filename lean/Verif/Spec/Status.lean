/-
Specification of the status asked for unwanted escapes in a URI component or form field.
-/
import Verif.Spec.Percent

namespace Spec.Percent
open Spec

/-- What a configuration may ask a status for. -/
inductive Unwelcome where
  | rawNul | escapedNul | invalidEscape | uEscape
  deriving DecidableEq, Repr

/-- `Meets o s m`: reading the text `s`, a decoder with these options meets `m`, in this order. -/
inductive Meets (o : Opts) : Bytes → List Unwelcome → Prop
  | nil : Meets o [] []
  | plain {c s m} : c ≠ 37 → c ≠ 0 → Meets o s m → Meets o (c :: s) m
  | rawNul {s m} : o.rawNulStops = false → Meets o s m → Meets o (0 :: s) (.rawNul :: m)
  | rawNulStop {s} : o.rawNulStops = true → Meets o (0 :: s) [.rawNul]
  /-- `%XX` -/
  | hex {x y s m} : IsHexDigit x → IsHexDigit y → hexByte x y ≠ 0 → Meets o s m → Meets o (37 :: x :: y :: s) m
  | hexNul {x y s m} : IsHexDigit x → IsHexDigit y → hexByte x y = 0 → o.escNulStops = false → Meets o s m →
      Meets o (37 :: x :: y :: s) (.escapedNul :: m)
  | hexNulStop {x y s} : IsHexDigit x → IsHexDigit y → hexByte x y = 0 → o.escNulStops = true →
      Meets o (37 :: x :: y :: s) [.escapedNul]
  /-- `%uXXXX` -/
  | u {u a b c d s m} : o.uEscapes = true → (u = 117 ∨ u = 85) →
      IsHexDigit a → IsHexDigit b → IsHexDigit c → IsHexDigit d →
      uByte o (hexByte a b) (hexByte c d) ≠ 0 → Meets o s m →
      Meets o (37 :: u :: a :: b :: c :: d :: s) (.uEscape :: m)
  | uNul {u a b c d s m} : o.uEscapes = true → (u = 117 ∨ u = 85) →
      IsHexDigit a → IsHexDigit b → IsHexDigit c → IsHexDigit d →
      uByte o (hexByte a b) (hexByte c d) = 0 → o.escNulStops = false → Meets o s m →
      Meets o (37 :: u :: a :: b :: c :: d :: s) (.uEscape :: .escapedNul :: m)
  | uNulStop {u a b c d s} : o.uEscapes = true → (u = 117 ∨ u = 85) →
      IsHexDigit a → IsHexDigit b → IsHexDigit c → IsHexDigit d →
      uByte o (hexByte a b) (hexByte c d) = 0 → o.escNulStops = true →
      Meets o (37 :: u :: a :: b :: c :: d :: s) [.uEscape, .escapedNul]
  | literalU {s m} : o.uEscapes = false → LetterU s → Meets o s m → Meets o (37 :: s) m
  /-- a percent sign that starts no escape -/
  | bad {s m} : ¬ Hex2 s → ¬ LetterU s → Meets o s m → Meets o (37 :: s) (.invalidEscape :: m)
  /-- a percent sign with the letter u, but not four hexadecimal digits; if there are four more bytes it is also a
  `%u` escape, though an invalid one -/
  | badU {s m} : o.uEscapes = true → LetterU s → ¬ UHex4 s → Meets o s m →
      Meets o (37 :: s) (if 5 ≤ s.length then .uEscape :: .invalidEscape :: m else .invalidEscape :: m)

end Spec.Percent

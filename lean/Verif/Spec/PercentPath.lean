/-
Specification of the decoding of URI paths, independent of the model. Three stages: escapes are
replaced by the bytes they denote; backslashes and letters are mapped; runs of slashes are squeezed.
-/
import Verif.Spec.Percent

namespace Spec.PercentPath
open Spec Spec.Percent

/-- The choices of a path decoder (invalid escapes are either kept or lose their percent sign). -/
structure Opts where
  rawNulStops : Bool
  escNulStops : Bool
  uEscapes : Bool
  dropBadPercent : Bool
  /-- a `%XX` escape of a path separator is replaced, not left alone -/
  decodeSeparators : Bool
  backslashIsSlash : Bool
  lowercase : Bool
  squeezeSlashes : Bool
  bestfit : UInt8 → UInt8 → UInt8

/-- Anomalies. -/
inductive Note where
  | invalid | escapedNul | overlongU | halfFullWidth | escapedSeparator
  deriving DecidableEq

/-- A byte that separates path segments. -/
def Separator (o : Opts) (c : UInt8) : Prop := c = 47 ∨ (o.backslashIsSlash = true ∧ c = 92)

instance (o : Opts) (c : UInt8) : Decidable (Separator o c) := by unfold Separator; infer_instance

/-- The byte a `%uXXYY` escape denotes. -/
def uByte (o : Opts) (hi lo : UInt8) : UInt8 := if hi = 0 then lo else o.bestfit hi lo

/-- The anomalies of a `%uXXYY` escape. -/
def uNotes (o : Opts) (hi lo : UInt8) : List Note :=
  (if hi = 0 then [.overlongU] else if hi = 0xff then [.halfFullWidth] else []) ++
  (if Separator o (uByte o hi lo) then [.escapedSeparator] else []) ++
  (if uByte o hi lo = 0 then [.escapedNul] else [])

/-- First stage: `Unescapes o s t notes`. -/
inductive Unescapes (o : Opts) : Bytes → Bytes → List Note → Prop
  | nil : Unescapes o [] [] []
  /-- any byte but '%' stands for itself (a raw NUL if it does not end the path) -/
  | plain {c s t n} : c ≠ 37 → (c = 0 → o.rawNulStops = false) → Unescapes o s t n →
      Unescapes o (c :: s) (c :: t) n
  | rawNulStop {s} : o.rawNulStops = true → Unescapes o (0 :: s) [] []
  /-- `%XX` -/
  | hex {x y s t n} : IsHexDigit x → IsHexDigit y → hexByte x y ≠ 0 → ¬ Separator o (hexByte x y) →
      Unescapes o s t n → Unescapes o (37 :: x :: y :: s) (hexByte x y :: t) n
  | hexSep {x y s t n} : IsHexDigit x → IsHexDigit y → Separator o (hexByte x y) →
      o.decodeSeparators = true → Unescapes o s t n →
      Unescapes o (37 :: x :: y :: s) (hexByte x y :: t) (.escapedSeparator :: n)
  | hexSepKept {x y s t n} : IsHexDigit x → IsHexDigit y → Separator o (hexByte x y) →
      o.decodeSeparators = false → Unescapes o (x :: y :: s) t n →
      Unescapes o (37 :: x :: y :: s) (37 :: t) (.escapedSeparator :: n)
  | hexNul {x y s t n} : IsHexDigit x → IsHexDigit y → hexByte x y = 0 → o.escNulStops = false →
      Unescapes o s t n → Unescapes o (37 :: x :: y :: s) (0 :: t) (.escapedNul :: n)
  | hexNulStop {x y s} : IsHexDigit x → IsHexDigit y → hexByte x y = 0 → o.escNulStops = true →
      Unescapes o (37 :: x :: y :: s) [] [.escapedNul]
  /-- `%uXXXX` -/
  | u {u a b c d s t n} : o.uEscapes = true → (u = 117 ∨ u = 85) →
      IsHexDigit a → IsHexDigit b → IsHexDigit c → IsHexDigit d →
      (uByte o (hexByte a b) (hexByte c d) = 0 → o.escNulStops = false) → Unescapes o s t n →
      Unescapes o (37 :: u :: a :: b :: c :: d :: s) (uByte o (hexByte a b) (hexByte c d) :: t)
        (uNotes o (hexByte a b) (hexByte c d) ++ n)
  | uNulStop {u a b c d s} : o.uEscapes = true → (u = 117 ∨ u = 85) →
      IsHexDigit a → IsHexDigit b → IsHexDigit c → IsHexDigit d →
      uByte o (hexByte a b) (hexByte c d) = 0 → o.escNulStops = true →
      Unescapes o (37 :: u :: a :: b :: c :: d :: s) [] (uNotes o (hexByte a b) (hexByte c d))
  | literalU {s t n} : o.uEscapes = false → LetterU s → Unescapes o s t n →
      Unescapes o (37 :: s) (37 :: t) n
  | bad {s t n} : ¬ Hex2 s → (o.uEscapes = true → ¬ UHex4 s) → (o.uEscapes = false → ¬ LetterU s) →
      Unescapes o s t n →
      Unescapes o (37 :: s) (if o.dropBadPercent then t else 37 :: t) (.invalid :: n)

/-- Second stage: backslash to slash, upper case to lower case. -/
def mapByte (o : Opts) (c : UInt8) : UInt8 :=
  if c = 92 ∧ o.backslashIsSlash = true then 47
  else if o.lowercase = true ∧ 65 ≤ c.toNat ∧ c.toNat ≤ 90 then UInt8.ofNat (c.toNat + 32)
  else c

/-- Third stage: a slash right before another slash is dropped. -/
def squeeze : Bytes → Bytes
  | [] => []
  | [c] => [c]
  | c :: d :: s => if c = 47 ∧ d = 47 then squeeze (d :: s) else c :: squeeze (d :: s)

example : squeeze (b! "//a///b/") = b! "/a/b/" := by decide

/-- The three stages. -/
def Decodes (o : Opts) (s t : Bytes) (notes : List Note) : Prop :=
  ∃ raw, Unescapes o s raw notes ∧
    t = if o.squeezeSlashes then squeeze (raw.map (mapByte o)) else raw.map (mapByte o)

end Spec.PercentPath

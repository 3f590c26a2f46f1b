/-
Specification of header fields folded over several lines (RFC 7230 section 3.2.4, `obs-fold`).
-/
import Verif.Spec.HeaderBlock

namespace Spec

/-- A header field: its name, what is written behind the colon on the first line, and the continuation
lines, each with the space or tab it begins with. -/
structure Field where
  name : Bytes
  first : Bytes
  folds : List (UInt8 × Bytes)
  deriving Repr, DecidableEq

/-- The continuation lines as written. -/
def renderFolds : List (UInt8 × Bytes) → Bytes
  | [] => []
  | (c, l) :: fs => c :: l ++ 13 :: 10 :: renderFolds fs

/-- The field as written: `name ":" first CRLF`, then the continuation lines. -/
def Field.render (f : Field) : Bytes := f.name ++ 58 :: f.first ++ 13 :: 10 :: renderFolds f.folds

/-- Everything behind the colon, without the line breaks. -/
def Field.text (f : Field) : Bytes := f.first ++ (f.folds.map fun (c, l) => c :: l).flatten

/-- The line begins like a field of its own: blanks, a token, blanks, a colon. -/
def LooksLikeField (l : Bytes) : Prop :=
  ∃ b1 name b2 rest, l = b1 ++ name ++ b2 ++ 58 :: rest ∧ name ≠ [] ∧ (∀ c ∈ b1, c = 32 ∨ c = 9) ∧
    (∀ c ∈ name, Tchar c) ∧ (∀ c ∈ b2, c = 32 ∨ c = 9)

/-- The name is a non-empty token, no line contains a line break, and the continuation lines begin with a
space or a tab. -/
structure Field.WellFormed (f : Field) : Prop where
  nonempty : f.name ≠ []
  token : ∀ c ∈ f.name, Tchar c
  first_line : ∀ c ∈ f.first, c ≠ 13 ∧ c ≠ 10
  fold_blank : ∀ x ∈ f.folds, x.1 = 32 ∨ x.1 = 9
  fold_line : ∀ x ∈ f.folds, ∀ c ∈ x.2, c ≠ 13 ∧ c ≠ 10

/-- The fields one after the other, then an empty line. -/
def renderFields : List Field → Bytes
  | [] => [13, 10]
  | f :: fs => f.render ++ renderFields fs

/-- `v` is `t` without the blanks around it. -/
def Stripped (t v : Bytes) : Prop :=
  ∃ l r, t = l ++ v ++ r ∧ (∀ c ∈ l, Blank c) ∧ (∀ c ∈ r, Blank c) ∧ (∀ c ∈ v.head?, ¬Blank c) ∧
    (∀ c ∈ v.getLast?, ¬Blank c)

example : renderFields [⟨b! "A", b! " b", [(32, b! "c"), (9, b! " d")]⟩, ⟨b! "X", b! "1", []⟩] =
    b! "A: b\r\n c\r\n\t d\r\nX:1\r\n\r\n" := by decide

example : (⟨b! "A", b! " b", [(32, b! "c"), (9, b! " d")]⟩ : Field).text = b! " b c\t d" := by decide

end Spec

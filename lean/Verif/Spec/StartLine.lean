/-
Specification of how the parts of a request line are told apart.
-/
import Verif.Spec.HeaderBlock

namespace Spec

/-- Every byte is a blank. -/
def Blanks (l : Bytes) : Prop := ∀ c ∈ l, Blank c

/-- No byte is a blank. -/
def Word (l : Bytes) : Prop := ∀ c ∈ l, ¬ Blank c

/-- The text is not empty and neither begins nor ends with a blank. -/
structure Trim (l : Bytes) : Prop where
  nonempty : l ≠ []
  first : ∀ c ∈ l.head?, ¬ Blank c
  last : ∀ c ∈ l.getLast?, ¬ Blank c

/-- The blanks `sep` are what separates the URI from the protocol. They contain a space, and it is the first space
of the text or, when spaces are allowed in a URI (`spaces`), one after which there is no other but in `sep`. Only
where there is no space at all another blank does: again the first, or one of those before the last word. -/
def Separates (spaces : Bool) (uri sep protocol : Bytes) : Prop :=
  let word := if spaces then protocol else uri
  (32 ∈ sep ∧ 32 ∉ word) ∨ (sep ≠ [] ∧ 32 ∉ uri ++ sep ++ protocol ∧ Word word)

instance (l : Bytes) : Decidable (Blanks l) := by unfold Blanks; infer_instance
instance (l : Bytes) : Decidable (Word l) := by unfold Word; infer_instance
instance (s : Bool) (u l p : Bytes) : Decidable (Separates s u l p) := by unfold Separates; infer_instance

end Spec

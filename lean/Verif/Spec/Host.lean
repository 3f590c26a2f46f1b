/-
Specification of acceptable (non-IPv6-literal) host names.
-/
import Verif.Spec.Text

namespace Spec

/-- A character allowed in a label: hyphen, underscore, an ASCII letter or digit, or one of the
Latin-1 letters and numbers ª ² ³ µ ¹ º ¼ ½ ¾ À..Ö Ø..ö ø..ÿ. -/
def HostChar (c : UInt8) : Prop :=
  c = 45 ∨ c = 95 ∨ (48 ≤ c.toNat ∧ c.toNat ≤ 57) ∨ (65 ≤ c.toNat ∧ c.toNat ≤ 90) ∨
  (97 ≤ c.toNat ∧ c.toNat ≤ 122) ∨
  c.toNat ∈ [0xAA, 0xB2, 0xB3, 0xB5, 0xB9, 0xBA, 0xBC, 0xBD, 0xBE] ∨
  (0xC0 ≤ c.toNat ∧ c.toNat ≠ 0xD7 ∧ c.toNat ≠ 0xF7)

instance : DecidablePred HostChar := fun c => by unfold HostChar; infer_instance

/-- Dot-separated labels of at most 63 allowed characters; only the last label may be empty (a
trailing dot); 1 to 255 bytes in total. -/
def HostName (s : Bytes) : Prop :=
  s ≠ [] ∧ s.length ≤ 255 ∧
  ∃ labels, labels ≠ [] ∧ join 46 labels = s ∧
    (∀ l ∈ labels, l.length ≤ 63 ∧ ∀ c ∈ l, HostChar c) ∧
    (∀ l ∈ labels.dropLast, l ≠ [])

end Spec

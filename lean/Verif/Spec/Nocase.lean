/-
Specification of ASCII case-insensitive comparison and search, independent of the model.
-/
import Verif.Basic

namespace Spec

/-- `a` and `b` are the same byte, or the upper/lower case forms of the same ASCII letter. -/
def SameNocase (a b : UInt8) : Prop :=
  a = b ∨ (65 ≤ a.toNat ∧ a.toNat ≤ 90 ∧ b.toNat = a.toNat + 32) ∨
    (65 ≤ b.toNat ∧ b.toNat ≤ 90 ∧ a.toNat = b.toNat + 32)

instance (a b : UInt8) : Decidable (SameNocase a b) := by unfold SameNocase; infer_instance

/-- Same length, and the same bytes up to ASCII case at every position. -/
def EqNocase (s t : Bytes) : Prop :=
  s.length = t.length ∧
    ∀ (i : Nat) (hs : i < s.length) (ht : i < t.length), SameNocase s[i] t[i]

/-- `t` is found in `s` at offset `i`, ignoring ASCII case. -/
def OccursAt (s t : Bytes) (i : Nat) : Prop :=
  i + t.length ≤ s.length ∧
    ∀ (k : Nat) (hs : i + k < s.length) (ht : k < t.length), SameNocase s[i + k] t[k]

/-- ASCII white space: TAB, LF, FF, CR, SP. -/
def asciiWhitespace : List UInt8 := [9, 10, 12, 13, 32]

/-- The string with its NUL bytes deleted. -/
def withoutNul (s : Bytes) : Bytes := s.filter (· ≠ 0)

/-- Offset `i` of `s` carries a non-NUL byte, and `t` is found right there (ignoring ASCII case)
when all NUL bytes from `i` on are deleted. -/
def OccursAtSkippingNul (s t : Bytes) (i : Nat) : Prop :=
  (∃ c, s[i]? = some c ∧ c ≠ 0) ∧ OccursAt (withoutNul (s.drop i)) t 0

end Spec

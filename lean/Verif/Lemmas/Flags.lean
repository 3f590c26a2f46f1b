/-
Helper lemmas: flag words.
-/
import Verif.Model.Flags

namespace Model

theorem isSet_or (f g m : Flags) : isSet (f ||| g) m = (isSet f m || isSet g m) := by
  simp only [isSet, Nat.and_or_distrib_right]
  have : ∀ a b : Nat, ((a ||| b) != 0) = ((a != 0) || (b != 0)) := by
    intro a b
    rw [Bool.eq_iff_iff]
    simp only [bne_iff_ne, ne_eq, Nat.or_eq_zero_iff, Bool.or_eq_true]
    omega
  exact this _ _

theorem isSet_set (f g m : Flags) : isSet (setFlag f g) m = (isSet f m || isSet g m) := isSet_or f g m

theorem isSet_zero (m : Flags) : isSet 0 m = false := by simp [isSet]

theorem setFlag_zero (f : Flags) : setFlag f 0 = f := by simp [setFlag]

theorem zero_setFlag (f : Flags) : setFlag 0 f = f := by simp [setFlag]

theorem setFlag_assoc (f g h : Flags) : setFlag (setFlag f g) h = setFlag f (setFlag g h) := by
  simp [setFlag, Nat.or_assoc]

end Model

/-
Specification of decimal and hexadecimal numerals.
-/
import Verif.Basic

namespace Spec

/-- '0'..'9'. -/
def IsDecDigit (c : UInt8) : Prop := 48 ≤ c.toNat ∧ c.toNat ≤ 57

instance : DecidablePred IsDecDigit := fun c => by unfold IsDecDigit; infer_instance

/-- '0'..'9', 'A'..'F', 'a'..'f'. -/
def IsHexDigit (c : UInt8) : Prop :=
  IsDecDigit c ∨ (65 ≤ c.toNat ∧ c.toNat ≤ 70) ∨ (97 ≤ c.toNat ∧ c.toNat ≤ 102)

instance : DecidablePred IsHexDigit := fun c => by unfold IsHexDigit; infer_instance

/-- The value of a digit, 0..15. -/
def digitValue (c : UInt8) : Nat :=
  if c.toNat ≤ 57 then c.toNat - 48
  else if c.toNat ≤ 70 then c.toNat - 55
  else c.toNat - 87

/-- The number denoted by a string of digits, most significant first. -/
def value (radix : Nat) (ds : Bytes) : Nat := ds.foldl (fun n d => n * radix + digitValue d) 0

/-- The digit character of a value below sixteen (lower case). -/
def digitChar (d : Nat) : UInt8 := if d < 10 then UInt8.ofNat (48 + d) else UInt8.ofNat (87 + d)

/-- Usual rendering of a number, most significant digit first, "0" for zero. -/
def render (radix n : Nat) : Bytes :=
  if _h : n < radix ∨ radix < 2 then [digitChar n]
  else render radix (n / radix) ++ [digitChar (n % radix)]
  termination_by n
  decreasing_by exact Nat.div_lt_self (by omega) (by omega)

example : render 10 1203 = b! "1203" := by
  rw [render, render, render, render]; decide
example : value 16 (b! "1aF") = 431 := by decide
example : value 10 (b! "0042") = 42 := by decide

end Spec

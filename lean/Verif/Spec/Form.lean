/-
Specification of `application/x-www-form-urlencoded` bodies, independent of the model.
-/
import Verif.Spec.Percent
import Verif.Spec.Text
import Mathlib.Data.List.Forall2

namespace Spec.Form
open Spec Spec.Percent

/-- The field splits into name and value at its first '='; without one the value is empty. -/
def SplitsAtEq (field name value : Bytes) : Prop :=
  61 ∉ name ∧ (field = name ++ 61 :: value ∨ (field = name ∧ value = []))

/-- The parameter a field stands for: both halves percent-decoded. -/
def FieldMeans (o : Opts) (field : Bytes) (param : Bytes × Bytes) : Prop :=
  ∃ name value, SplitsAtEq field name value ∧ (∃ notes, Decodes o name param.1 notes) ∧
    ∃ notes, Decodes o value param.2 notes

/-- The body is a list of fields with the separator between neighbours. Empty fields are ignored. A
body that is not empty but has only empty fields stands for one empty parameter. -/
def Parses (o : Opts) (sep : UInt8) (body : Bytes) (params : List (Bytes × Bytes)) : Prop :=
  ∃ fields : List Bytes, fields ≠ [] ∧ (∀ f ∈ fields, sep ∉ f) ∧ join sep fields = body ∧
    if body ≠ [] ∧ fields.filter (· ≠ []) = [] then params = [([], [])]
    else List.Forall₂ (FieldMeans o) (fields.filter (· ≠ [])) params

end Spec.Form

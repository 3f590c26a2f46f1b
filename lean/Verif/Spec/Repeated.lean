/-
Specification of what is kept of a list of header fields in which names may repeat.
-/
import Verif.Spec.Nocase
import Verif.Spec.Lookup
import Verif.Model.Table

namespace Spec
open Model

/-- The `i`-th field of the message. -/
def field (hs : List Header) (i : Nat) : Header := hs.getD i { name := [], value := [] }

/-- Fields `i` and `j` have the same name, ignoring ASCII case. -/
def Same (hs : List Header) (i j : Nat) : Prop := EqNocase (field hs i).name (field hs j).name

open Classical in
/-- How many fields before the `i`-th have its name. -/
noncomputable def before (hs : List Header) (i : Nat) : Nat :=
  (List.range i).countP (fun j => decide (Same hs j i))

open Classical in
/-- How many of the first `i` fields are third or later occurrences of their name. -/
noncomputable def extras (hs : List Header) (i : Nat) : Nat :=
  (List.range i).countP (fun j => decide (2 ≤ before hs j))

/-- The first two occurrences of a name are recorded; of all the others together, the first 64. -/
def Recorded (hs : List Header) (i : Nat) : Prop := before hs i < 2 ∨ extras hs i < 64

/-- Values joined with a comma and a space. -/
def joinComma : List Bytes → Bytes
  | [] => []
  | [v] => v
  | v :: vs => v ++ b! ", " ++ joinComma vs

open Classical in
/-- What is stored for a name whose first occurrence is the `i`-th field: the spelling of that
occurrence, all recorded values in order (for Content-Length only the first), and a mark when the name
occurs again. -/
noncomputable def stored (repeatedMark : Flags) (hs : List Header) (i : Nat) : Header :=
  { name := (field hs i).name
    value :=
      if EqNocase (field hs i).name (b! "Content-Length") then (field hs i).value
      else joinComma (((List.range hs.length).filter
        (fun j => decide (Same hs j i ∧ Recorded hs j))).map (fun j => (field hs j).value))
    flags := if ∃ j, j < hs.length ∧ j ≠ i ∧ Same hs j i
      then (field hs i).flags ||| repeatedMark else (field hs i).flags }

open Classical in
/-- The header table: one entry per name, in the order of first appearance. -/
noncomputable def storedTable (repeatedMark : Flags) (hs : List Header) : List Header :=
  ((List.range hs.length).filter (fun i => decide (before hs i = 0))).map (stored repeatedMark hs)

end Spec

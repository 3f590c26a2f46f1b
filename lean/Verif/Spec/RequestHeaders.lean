/-
Specification vocabulary for decisions taken from a table of request headers.
-/
import Verif.Spec.Lookup
import Verif.Model.Table

namespace Spec
open Model

/-- `r` is the field of that name in the table (the first one, ignoring ASCII case, NUL bytes and
surrounding white space), or `none` if there is none. -/
def Named (hs : List Header) (name : Bytes) (r : Option Header) : Prop :=
  FirstMatch (fun h => NameMatchesNozero h.name name) hs r

/-- `word` occurs in the text, ignoring ASCII case and NUL bytes. -/
def Mentions (text word : Bytes) : Prop := ∃ i, OccursAt (withoutNul text) word i

/-- A host name that can be written in a Host header as is: no delimiters, blanks or brackets. -/
def PlainHost (h : Bytes) : Prop := h ≠ [] ∧ ∀ c ∈ h, c ∉ b! "/?#: ["

end Spec

/-
Requests that wait for permission to send their body, and the parser of a request whose body has not begun.
-/
import Verif.Spec.Message
import Verif.Spec.Lookup

namespace Spec

open Model

/-- The request asks for permission before it sends its body (RFC 9110, section 10.1.1). -/
def Expects (t : Tx) : Prop :=
  ∃ h ∈ t.requestHeaders, NameMatches h.name (b! "expect") ∧ h.value = b! "100-continue"

/-- The request parser knows that a body comes, and how long it is, and nothing of it has come. -/
def WholeBodyAhead (h : Half) : Prop := 0 < h.contentLength.getD 0 ∧ h.bodyDataLeft = h.contentLength

/-- The request parser has been left alone: only its status may differ. -/
def ParserKept (h h' : Half) : Prop := { h' with status := .new } = { h with status := .new }

/-- The request parser is at the end of the request that it was reading: only its status and its state may differ. -/
def ParserEnded (h h' : Half) : Prop :=
  { h' with status := .new, state := .none } = { h with status := .new, state := .none } ∧ h'.state = .finalize

end Spec

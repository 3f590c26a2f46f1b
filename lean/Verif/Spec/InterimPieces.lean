/-
Interim responses that come in pieces.
-/
import Verif.Spec.Interim
import Verif.Spec.Segmented

namespace Spec

open Model

/-- Where an interim response may be cut: not within its status line (`C71_status_line_as_headers`), anywhere in its
header block. -/
def Response.interimTokens (i : Response) : List Token := .line (i.line ++ [13, 10]) :: loose (renderBlock i.headers)

/-- The callbacks run in a call with this piece of some interim responses: one for each status line in it, and at the end
of the call one for the header data after the last status line. `acc` is the header data seen so far. -/
def interimPieceCallbacks (k : Nat) : Bytes → List Token → List Event
  | acc, [] => [.data .responseHeaderData k (.ofBytes acc)]
  | acc, .byte c :: ts => interimPieceCallbacks k (acc ++ [c]) ts
  | _, .line _ :: ts => .tx .responseLine k :: interimPieceCallbacks k [] ts

end Spec

/-
HTTP/0.9: a request is one line without a protocol, and what comes back is all body, up to the end of the connection.
-/
import Verif.Spec.Dialogue
import Verif.Spec.Body

namespace Spec

open Model

/-- A request of HTTP/0.9. -/
structure SimpleRequest where
  method : Bytes
  uri : Bytes

namespace SimpleRequest

/-- Its line, without its end. -/
def line (r : SimpleRequest) : Bytes := r.method ++ 32 :: r.uri

/-- The request as it is written. -/
def render (r : SimpleRequest) : Bytes := r.line ++ [13, 10]

/-- The method and the URI are words without NUL. -/
structure WellFormed (r : SimpleRequest) : Prop where
  method : r.method ≠ [] ∧ Word r.method ∧ 0 ∉ r.method
  uri : r.uri ≠ [] ∧ Word r.uri ∧ 0 ∉ r.uri

end SimpleRequest

/-- The callbacks run for such a request, if it is request `k`. -/
def simpleCallbacks (k : Nat) : List Event :=
  [.tx .requestStart k, .tx .requestUriNormalize k, .tx .requestLine k, .tx .requestComplete k]

/-- The transaction that records such a request. -/
structure RecordsSimple (t : Tx) (k : Nat) (r : SimpleRequest) : Prop where
  index : t.index = k
  line : t.requestLine = some r.line
  method : t.requestMethod = some r.method
  methodNumber : ∀ m, (r.method, m) ∈ methods → t.requestMethodNumber = m
  uri : t.requestUri = some r.uri
  protocol : t.requestProtocol = none
  protocolNumber : t.requestProtocolNumber = .v0_9
  protocol09 : t.isProtocol09 = true
  headers : t.requestHeaders = []
  bodyLength : t.requestEntityLen = 0
  progress : t.requestProgress = .complete

/-- A call with data for either side. -/
inductive SimpleCall : Op → Prop
  | request {b : Bytes} : b ≠ [] → SimpleCall (.request (.data b))
  | response {b : Bytes} : b ≠ [] → SimpleCall (.response (.data b))

/-- The data for the response side. -/
def respondedIn : List Op → List Bytes
  | [] => []
  | .response (.data b) :: ops => b :: respondedIn ops
  | _ :: ops => respondedIn ops

/-- The data for the request side. -/
def requestedIn : List Op → List Bytes
  | [] => []
  | .request (.data b) :: ops => b :: requestedIn ops
  | _ :: ops => requestedIn ops

/-- The callbacks run for an answer that comes in these pieces. -/
def simpleAnswer (k : Nat) (pieces : List Bytes) : List Event :=
  if pieces = [] then [] else .tx .responseStart k :: pieces.flatMap (answerBodyCallbacks k)

end Spec

/-
Interim responses: what a server says before the final response.
-/
import Verif.Spec.Answer
import Verif.Spec.Expect
import Verif.Spec.Repeated

namespace Spec

open Model

/-- An interim response: the code 100, and no body. No header field comes more than twice (`C71_repetitions_kept`). -/
structure Response.Interim (r : Response) : Prop where
  head : r.HeadWellFormed
  code : r.code = 100
  body : r.body = .absent
  noCoding : ∀ h, ¬ r.Has (b! "transfer-encoding") h
  noLength : ∀ h, ¬ r.Has (b! "content-length") h
  repeated : ∀ j, j < r.headers.length → before (fieldsOf r.headers) j < 2

/-- The callbacks run for the interim responses of one call, after which the data ends: one for each status line, and one
for the header block of the last of them. -/
def interimCallbacks (k : Nat) (is : List Response) : List Event :=
  is.map (fun _ => .tx .responseLine k) ++
  (is.getLast?.map fun i => Event.data .responseHeaderData k (.ofBytes (renderBlock i.headers))).toList

/-- Interim responses have been read (in calls that ended after them), and the status line of the next response to `t` is
awaited. -/
structure AwaitsResponse (s : Conn) (t : Tx) : Prop where
  current : s.txs.get s.txs.response = some t
  state : s.resp.state = .line ∧ s.resp.statePrevious = .line
  buf : s.resp.buf = []
  header : s.resp.header = none
  status : s.resp.status = .data
  notBlocked : s.responseDataOtherAtTxEnd = false
  seen : t.seen100Continue = true
  noHeaders : t.responseHeaders = []
  noRepetitions : t.responseHeaderRepetitions = 0
  noLength : t.responseContentLength = none
  noBody : t.responseEntityLen = 0
  progress : t.responseProgress = .line
  parser : t.responseHeaderParser = { side := .response }

/-- The parser is between two responses and nothing has been seen of the response to `t`, or interim responses have been
read; the callbacks that are run before those for the next response. -/
inductive NextStatusLine (s : Conn) (t : Tx) : List Event → Prop
  | between : BetweenResponses s → Unanswered t → NextStatusLine s t [.tx .responseStart s.txs.response]
  | waiting : AwaitsResponse s t → NextStatusLine s t []

/-- The request of this transaction has been seen, at least in part, and can be followed by interim responses: not
CONNECT, not HTTP/0.9. -/
structure Asked (t : Tx) : Prop where
  started : t.requestProgress ≠ .notStarted
  notConnect : t.requestMethodNumber ≠ .connect
  notProtocol09 : t.isProtocol09 = false

/-- The request of this transaction is complete and can be answered by the final response `r`. -/
structure Answerable (t : Tx) (r : Response) : Prop where
  complete : t.requestProgress = .complete
  notConnect : t.requestMethodNumber ≠ .connect
  notProtocol09 : t.isProtocol09 = false
  notRefused : t.requestHeaders.getNocase (b! "expect") = none ∨ ¬ (400 ≤ r.code ∧ r.code ≤ 499)
  response : r.WellFormed (decide (t.requestMethodNumber = .head))

/-- So it is for a parser in this state: it does not refuse the body of a request that is waiting. -/
structure AnswerableNow (s : Conn) (t : Tx) (r : Response) : Prop where
  complete : t.requestProgress = .complete
  notConnect : t.requestMethodNumber ≠ .connect
  notProtocol09 : t.isProtocol09 = false
  notRefused : t.requestHeaders.getNocase (b! "expect") = none ∨ ¬ (400 ≤ r.code ∧ r.code ≤ 499) ∨ ¬ WholeBodyAhead s.req
  response : r.WellFormed (decide (t.requestMethodNumber = .head))

theorem Answerable.now {t : Tx} {r : Response} (h : Answerable t r) (s : Conn) : AnswerableNow s t r :=
  ⟨h.complete, h.notConnect, h.notProtocol09, h.notRefused.imp_right .inl, h.response⟩

end Spec

/-
Well-formed HTTP/1.x responses as they are written, and what the library should make of them.
-/
import Verif.Spec.Message

namespace Spec

open Model

/-- A response. -/
structure Response where
  protocol : Bytes
  code : Nat
  message : Bytes
  headers : List HeaderLine
  body : Body

namespace Response

/-- The status line, without its end. -/
def line (r : Response) : Bytes := r.protocol ++ 32 :: (Spec.render 10 r.code ++ 32 :: r.message)

/-- The response as it is written. -/
def render (r : Response) : Bytes := r.line ++ [13, 10] ++ (renderBlock r.headers ++ r.body.render)

/-- Its header fields have this name (in any case). -/
def Has (r : Response) (name : Bytes) (h : HeaderLine) : Prop := h ∈ r.headers ∧ EqNocase h.name name

/-- The body is announced by the header fields. There is none after a HEAD request, nor with the codes 204 and 304
when no field announces one. A body of announced length does not begin with a space, a tab or a CR
(see `C21_response_swallows`). -/
def Framed (head : Bool) (r : Response) : Prop :=
  match r.body with
  | .absent => head = true ∨ ((r.code = 204 ∨ r.code = 304) ∧
      (∀ h, ¬ r.Has (b! "transfer-encoding") h) ∧ ∀ h, ¬ r.Has (b! "content-length") h)
  | .sized content => head = false ∧ (∀ h, ¬ r.Has (b! "transfer-encoding") h) ∧
      (∃ h, r.Has (b! "content-length") h) ∧
      (∀ h, r.Has (b! "content-length") h → h.value = Spec.render 10 content.length) ∧
      ∀ c ∈ content.head?, c ≠ 32 ∧ c ≠ 9 ∧ c ≠ 13
  | .chunked chunks last trailer => head = false ∧ (∃ h, r.Has (b! "transfer-encoding") h) ∧
      (∀ h, r.Has (b! "transfer-encoding") h → EqNocase h.value (b! "chunked")) ∧
      (∀ c ∈ chunks, c.Valid) ∧ SizeLine last 0 ∧ ∀ h ∈ trailer, h.WellFormed

/-- The head of the response is well-formed: one of the two protocols, a status code, a message without line breaks or
blanks before it, well-formed header fields. -/
structure HeadWellFormed (r : Response) : Prop where
  protocol : ∃ p, (r.protocol, p) ∈ protocols
  code : 100 ≤ r.code ∧ r.code ≤ 999
  message : (∀ c ∈ r.message, c ≠ 13 ∧ c ≠ 10) ∧ ∀ c ∈ r.message.head?, ¬ Blank c
  headers : ∀ h ∈ r.headers, h.WellFormed

/-- A response the library can be expected to recover (`head`: to a HEAD request): one of the two protocols, a final
status code, a message without line breaks or blanks before it, well-formed header fields that announce the body and
no content coding. -/
structure WellFormed (head : Bool) (r : Response) : Prop where
  protocol : ∃ p, (r.protocol, p) ∈ protocols
  code : 200 ≤ r.code ∧ r.code ≤ 999
  message : (∀ c ∈ r.message, c ≠ 13 ∧ c ≠ 10) ∧ ∀ c ∈ r.message.head?, ¬ Blank c
  headers : ∀ h ∈ r.headers, h.WellFormed
  framed : r.Framed head
  length : r.body.content.length < 2 ^ 64
  noCoding : ∀ h, ¬ r.Has (b! "content-encoding") h

theorem WellFormed.head {head : Bool} {r : Response} (h : r.WellFormed head) : r.HeadWellFormed :=
  ⟨h.protocol, ⟨by have := h.code; omega, h.code.2⟩, h.message, h.headers⟩

/-- Neither the header block nor the trailer (if the body is chunked) is empty. -/
def Filled (r : Response) : Prop := r.headers ≠ [] ∧ ∀ chunks last, r.body ≠ .chunked chunks last []

end Response

/-- The two callbacks that are given a piece of the body of a response. -/
def answerBodyCallbacks (k : Nat) (d : Bytes) : List Event :=
  [.data .responseBodyDataTx k { data := some d }, .data .responseBodyData k { data := some d }]

/-- The callbacks run for the body of response `k`. -/
def Body.answerCallbacks (k : Nat) : Body → List Event
  | .absent => []
  | .sized content => if content = [] then [] else answerBodyCallbacks k content
  | .chunked chunks _ trailer =>
    chunks.flatMap (fun c => answerBodyCallbacks k c.data) ++
    [.data .responseTrailerData k (.ofBytes (renderBlock trailer)), .tx .responseTrailer k]

/-- The callbacks run for response `k`, in their order. -/
def Response.callbacks (r : Response) (k : Nat) : List Event :=
  [.tx .responseStart k, .tx .responseLine k,
   .data .responseHeaderData k (.ofBytes (renderBlock r.headers)), .tx .responseHeaders k] ++
  r.body.answerCallbacks k ++ [.tx .responseComplete k, .tx .transactionComplete k]

/-- The callbacks run for these responses, the first of them being response `k`. -/
def responseCallbacks : Nat → List Response → List Event
  | _, [] => []
  | k, r :: rs => r.callbacks k ++ responseCallbacks (k + 1) rs

/-- The transaction that records this response. -/
structure RecordsResponse (t : Tx) (r : Response) : Prop where
  line : t.responseLine = some (r.line ++ [13, 10])
  protocol : t.responseProtocol = some r.protocol
  protocolNumber : (r.protocol, t.responseProtocolNumber) ∈ protocols
  status : t.responseStatus = some (Spec.render 10 r.code)
  statusNumber : t.responseStatusNumber = .valid r.code
  message : t.responseMessage = some r.message
  headers : t.responseHeaders = storedTable HFlag.FIELD_REPEATED (fieldsOf (r.headers ++ r.body.trailer))
  coding : t.responseTransferCoding = r.body.coding
  contentLength : t.responseContentLength = r.body.size
  bodyLength : t.responseEntityLen = r.body.content.length
  progress : t.responseProgress = .complete

/-- The transaction of a complete request that can be answered by `r`: not CONNECT, not HTTP/0.9, no "Expect" that is
refused, and `r` has a body only if the request was not HEAD. -/
structure AnswerableBy (t : Tx) (r : Response) : Prop where
  complete : t.requestProgress = .complete
  unanswered : Unanswered t
  notConnect : t.requestMethodNumber ≠ .connect
  notProtocol09 : t.isProtocol09 = false
  notRefused : t.requestHeaders.getNocase (b! "expect") = none ∨ ¬ (400 ≤ r.code ∧ r.code ≤ 499)
  response : r.WellFormed (decide (t.requestMethodNumber = .head))

/-- The parser is between two responses. -/
structure BetweenResponses (s : Conn) : Prop where
  state : s.resp.state = .idle
  buf : s.resp.buf = []
  header : s.resp.header = none
  receiver : s.resp.receiver = none
  status : s.resp.status = .new ∨ s.resp.status = .open ∨ s.resp.status = .data
  notBlocked : s.responseDataOtherAtTxEnd = false

end Spec

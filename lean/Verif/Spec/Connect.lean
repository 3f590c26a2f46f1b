/-
CONNECT requests: how they are written, and the states of the parser while the tunnel is negotiated.
-/
import Verif.Spec.Answer

namespace Spec

open Model

/-- The method that asks for a tunnel. -/
def connectMethods : List (Bytes × Method) := [(b! "CONNECT", .connect)]

/-- A well-formed CONNECT request. It has no body. -/
structure Request.Connects (r : Request) : Prop where
  wellFormed : r.WellFormedIn connectMethods
  noBody : r.body = .absent

/-- The callbacks run for CONNECT request `k` before its response is seen. -/
def connectCallbacks (r : Request) (k : Nat) : List Event :=
  [.tx .requestStart k, .tx .requestUriNormalize k, .tx .requestLine k,
   .data .requestHeaderData k (.ofBytes (renderBlock r.headers)), .tx .requestHeaders k]

/-- The transaction that records the head of CONNECT request `k`. It is not complete. -/
structure RecordsConnect (t : Tx) (k : Nat) (r : Request) : Prop where
  index : t.index = k
  line : t.requestLine = some r.line
  method : t.requestMethod = some r.method
  methodNumber : t.requestMethodNumber = .connect
  uri : t.requestUri = some r.uri
  protocol : t.requestProtocol = some r.protocol
  protocolNumber : (r.protocol, t.requestProtocolNumber) ∈ protocols
  notProtocol09 : t.isProtocol09 = false
  headers : t.requestHeaders = storedTable HFlag.FIELD_REPEATED (fieldsOf r.headers)
  coding : t.requestTransferCoding = .noBody
  noCoding : t.requestContentEncodingProcessing = .none
  bodyLength : t.requestEntityLen = 0
  progress : t.requestProgress = .headers

/-- The head of a CONNECT request has been read into transaction `t`, and it is not yet known what follows it. -/
structure Negotiates (s : Conn) (t : Tx) : Prop where
  state : s.req.state = .connectWaitResponse
  buf : s.req.buf = []
  header : s.req.header = none
  receiver : s.req.receiver = none
  status : s.req.status = .data ∨ s.req.status = .dataOther
  current : s.txs.get s.txs.request = some t
  next : s.txs.get (s.txs.request + 1) = none ∨ s.txs.get (s.txs.request + 1) = some { index := s.txs.request + 1 }
  beyond : ∀ j, s.txs.request + 1 < j → s.txs.get j = none

/-- A tunnel has been granted, and this much of the first line the client sends has been read. -/
structure Probes (s : Conn) (t : Tx) (b : Bytes) : Prop where
  state : s.req.state = .connectProbeData
  buf : s.req.buf = b
  header : s.req.header = none
  receiver : s.req.receiver = none
  status : s.req.status = .data
  current : s.txs.get s.txs.request = some t

/-- The status line and the header fields of the response have not all been read. -/
def NotAnswered (t : Tx) : Prop := t.responseProgress = .notStarted ∨ t.responseProgress = .line

/-- The response has been read. -/
def Decided (t : Tx) : Prop := t.responseProgress = .complete ∧ ∃ n, t.responseStatusNumber = .valid n

/-- The tunnel has been granted, and this much of the first line the client sends after that has been read. -/
inductive Granted (s : Conn) (t : Tx) : Bytes → Prop where
  | waiting (n : Nat) : Negotiates s t → t.responseProgress = .complete → t.responseStatusNumber = .valid n →
      200 ≤ n ∧ n ≤ 299 → Granted s t []
  | probing {b : Bytes} : Probes s t b → Granted s t b

/-- The line begins with the name of a request method, possibly after blanks. -/
def BeginsWithMethod (line : Bytes) : Prop :=
  ∃ lead word rest, line = lead ++ word ++ rest ∧ Blanks lead ∧ Word word ∧ (∀ c ∈ rest.head?, Blank c) ∧
    ∃ m, (word, m) ∈ methodNames

/-- The transaction records this response, which has no body. -/
structure RecordsVerdict (t : Tx) (a : Response) : Prop where
  line : t.responseLine = some (a.line ++ [13, 10])
  protocol : t.responseProtocol = some a.protocol
  protocolNumber : (a.protocol, t.responseProtocolNumber) ∈ protocols
  status : t.responseStatus = some (Spec.render 10 a.code)
  statusNumber : t.responseStatusNumber = .valid a.code
  message : t.responseMessage = some a.message
  headers : t.responseHeaders = storedTable HFlag.FIELD_REPEATED (fieldsOf a.headers)
  bodyLength : t.responseEntityLen = 0
  progress : t.responseProgress = .complete

/-- A response that refuses a tunnel has been read, and the parser has not gone on to the next response. -/
structure Refused (s : Conn) : Prop where
  state : s.resp.state = .finalize
  buf : s.resp.buf = []
  header : s.resp.header = none
  receiver : s.resp.receiver = none
  status : s.resp.status = .data
  notBlocked : s.responseDataOtherAtTxEnd = false

end Spec

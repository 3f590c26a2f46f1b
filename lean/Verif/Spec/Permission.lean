/-
A request that waits for permission to send its body: its head, and the states of the parser until it is over.
-/
import Verif.Spec.Connect
import Verif.Spec.Expect

namespace Spec

open Model

/-- The request as it is written, without its body. -/
def Request.head (r : Request) : Bytes := r.line ++ [13, 10] ++ renderBlock r.headers

/-- The request asks for permission, in exactly one field. -/
def Request.Asks (r : Request) : Prop :=
  ∃ a h b, r.headers = a ++ h :: b ∧ EqNocase h.name (b! "expect") ∧ h.value = b! "100-continue" ∧
    ∀ x ∈ a ++ b, ¬ EqNocase x.name (b! "expect")

/-- The transaction records the head of request `k`, whose body of `n` bytes has not begun. -/
structure RecordsHead (t : Tx) (k : Nat) (r : Request) (n : Nat) : Prop where
  index : t.index = k
  line : t.requestLine = some r.line
  method : t.requestMethod = some r.method
  methodNumber : (r.method, t.requestMethodNumber) ∈ methods
  uri : t.requestUri = some r.uri
  protocol : t.requestProtocol = some r.protocol
  protocolNumber : (r.protocol, t.requestProtocolNumber) ∈ protocols
  notProtocol09 : t.isProtocol09 = false
  headers : t.requestHeaders = storedTable HFlag.FIELD_REPEATED (fieldsOf r.headers)
  coding : t.requestTransferCoding = .identity
  contentLength : t.requestContentLength = some n
  noCoding : t.requestContentEncodingProcessing = .none
  bodyLength : t.requestEntityLen = 0
  progress : t.requestProgress = .body

/-- The request parser is at the current transaction, which is `t`, and holds nothing back. -/
structure Reads (s : Conn) (t : Tx) : Prop where
  buf : s.req.buf = []
  header : s.req.header = none
  receiver : s.req.receiver = none
  status : s.req.status = .data
  current : s.txs.get s.txs.request = some t
  next : s.txs.get (s.txs.request + 1) = none ∨ s.txs.get (s.txs.request + 1) = some { index := s.txs.request + 1 }
  beyond : ∀ j, s.txs.request + 1 < j → s.txs.get j = none

/-- The head of a request has been read into transaction `t`; its body of `n` bytes is awaited. -/
structure AtBody (s : Conn) (t : Tx) (n : Nat) : Prop extends Reads s t where
  state : s.req.state = .bodyIdentity
  length : s.req.contentLength = some n
  left : s.req.bodyDataLeft = some n

/-- The body of the request is not awaited any more. -/
structure GivenUp (s : Conn) (t : Tx) : Prop extends Reads s t where
  state : s.req.state = .finalize

/-- The transaction records request `k`, which is over without its body of `n` bytes. -/
structure RecordsRefused (t : Tx) (k : Nat) (r : Request) (n : Nat) : Prop where
  index : t.index = k
  line : t.requestLine = some r.line
  method : t.requestMethod = some r.method
  uri : t.requestUri = some r.uri
  protocol : t.requestProtocol = some r.protocol
  headers : t.requestHeaders = storedTable HFlag.FIELD_REPEATED (fieldsOf r.headers)
  contentLength : t.requestContentLength = some n
  bodyLength : t.requestEntityLen = 0
  progress : t.requestProgress = .complete

end Spec

/-
Well-formed HTTP/1.x requests as they are written, and what the library should make of them.
-/
import Verif.Spec.Chunked
import Verif.Spec.HeaderBlock
import Verif.Spec.Repeated
import Verif.Spec.StartLine

namespace Spec

open Model

/-- The request methods, CONNECT apart, and how the library calls them. -/
def methods : List (Bytes × Method) :=
  [(b! "GET", .get), (b! "HEAD", .head), (b! "POST", .post), (b! "PUT", .put), (b! "DELETE", .delete),
   (b! "OPTIONS", .options), (b! "TRACE", .trace), (b! "PATCH", .patch), (b! "PROPFIND", .propfind),
   (b! "PROPPATCH", .proppatch), (b! "MKCOL", .mkcol), (b! "COPY", .copy), (b! "MOVE", .move),
   (b! "LOCK", .lock), (b! "UNLOCK", .unlock), (b! "VERSION-CONTROL", .versionControl),
   (b! "CHECKOUT", .checkout), (b! "UNCHECKOUT", .uncheckout), (b! "CHECKIN", .checkin),
   (b! "UPDATE", .update), (b! "LABEL", .label), (b! "REPORT", .report),
   (b! "MKWORKSPACE", .mkworkspace), (b! "MKACTIVITY", .mkactivity),
   (b! "BASELINE-CONTROL", .baselineControl), (b! "MERGE", .merge)]

/-- The protocol versions. -/
def protocols : List (Bytes × Protocol) := [(b! "HTTP/1.0", .v1_0), (b! "HTTP/1.1", .v1_1)]

/-- What follows the header block. -/
inductive Body where
  | absent
  | sized (content : Bytes)
  | chunked (chunks : List BodyChunk) (last : Bytes) (trailer : List HeaderLine)

/-- The body that is transferred. -/
def Body.content : Body → Bytes
  | .absent => []
  | .sized content => content
  | .chunked chunks _ _ => carried chunks

/-- How it is written. -/
def Body.render : Body → Bytes
  | .absent => []
  | .sized content => content
  | .chunked chunks last trailer => bytesOf (encoded chunks) ++ (last ++ renderBlock trailer)

/-- How it is framed. -/
def Body.coding : Body → TransferCoding
  | .absent => .noBody
  | .sized _ => .identity
  | .chunked .. => .chunked

/-- The length it announces. -/
def Body.size : Body → Option Nat
  | .sized content => some content.length
  | _ => none

/-- The fields that follow it. -/
def Body.trailer : Body → List HeaderLine
  | .chunked _ _ trailer => trailer
  | _ => []

/-- A request. -/
structure Request where
  method : Bytes
  uri : Bytes
  protocol : Bytes
  headers : List HeaderLine
  body : Body

namespace Request

/-- The request line, without its end. -/
def line (r : Request) : Bytes := r.method ++ 32 :: (r.uri ++ 32 :: r.protocol)

/-- The request as it is written. -/
def render (r : Request) : Bytes := r.line ++ [13, 10] ++ (renderBlock r.headers ++ r.body.render)

/-- Its header fields have this name (in any case). -/
def Has (r : Request) (name : Bytes) (h : HeaderLine) : Prop := h ∈ r.headers ∧ EqNocase h.name name

end Request

/-- The body is announced by the header fields, and only so. -/
def Request.Framed (r : Request) : Prop :=
  match r.body with
  | .absent => (∀ h, ¬ r.Has (b! "transfer-encoding") h) ∧ ∀ h, ¬ r.Has (b! "content-length") h
  | .sized content => (∀ h, ¬ r.Has (b! "transfer-encoding") h) ∧ (∃ h, r.Has (b! "content-length") h) ∧
      ∀ h, r.Has (b! "content-length") h → h.value = Spec.render 10 content.length
  | .chunked chunks last trailer => (∃ h, r.Has (b! "transfer-encoding") h) ∧
      (∀ h, r.Has (b! "transfer-encoding") h → EqNocase h.value (b! "chunked")) ∧
      (∀ c ∈ chunks, c.Valid) ∧ SizeLine last 0 ∧ ∀ h ∈ trailer, h.WellFormed

/-- A request the library can be expected to recover: one of these methods, a URI without blanks or NUL, one of the two
protocols, well-formed header fields that announce the body, no content coding, and content types that begin with
something. -/
structure Request.WellFormedIn (ms : List (Bytes × Method)) (r : Request) : Prop where
  method : ∃ m, (r.method, m) ∈ ms
  uri : r.uri ≠ [] ∧ Word r.uri ∧ 0 ∉ r.uri
  protocol : ∃ p, (r.protocol, p) ∈ protocols
  headers : ∀ h ∈ r.headers, h.WellFormed
  framed : r.Framed
  length : r.body.content.length < 2 ^ 64
  noCoding : ∀ h, ¬ r.Has (b! "content-encoding") h
  contentType : ∀ h, r.Has (b! "content-type") h → ∃ c, h.value.head? = some c ∧ c ∉ b! ";, "

/-- Such a request with a known method other than CONNECT. -/
abbrev Request.WellFormed (r : Request) : Prop := r.WellFormedIn methods

/-- The fields of these lines. -/
def fieldsOf (hs : List HeaderLine) : List Header := hs.map fun h => { name := h.name, value := h.value }

/-- The two callbacks that are given a piece of body, or (`none`) told that it is over. -/
def bodyCallbacks (k : Nat) (d : Option Bytes) : List Event :=
  [.data .requestBodyDataTx k { data := d }, .data .requestBodyData k { data := d }]

/-- The callbacks run for the body of request `k`. -/
def Body.callbacks (k : Nat) : Body → List Event
  | .absent => []
  | .sized content =>
    (if content = [] then [] else bodyCallbacks k (some content) ++ bodyCallbacks k none) ++ bodyCallbacks k none
  | .chunked chunks _ trailer =>
    chunks.flatMap (fun c => bodyCallbacks k (some c.data)) ++
    [.data .requestTrailerData k (.ofBytes (renderBlock trailer)), .tx .requestTrailer k] ++ bodyCallbacks k none

/-- The callbacks run for request `k`, in their order. -/
def Request.callbacks (r : Request) (k : Nat) : List Event :=
  [.tx .requestStart k, .tx .requestUriNormalize k, .tx .requestLine k,
   .data .requestHeaderData k (.ofBytes (renderBlock r.headers)), .tx .requestHeaders k] ++
  r.body.callbacks k ++ [.tx .requestComplete k]

/-- The callbacks run for these requests, the first of them being request `k`. -/
def requestCallbacks : Nat → List Request → List Event
  | _, [] => []
  | k, r :: rs => r.callbacks k ++ requestCallbacks (k + 1) rs

/-- The transaction that records request `k`. -/
structure Records (t : Tx) (k : Nat) (r : Request) : Prop where
  index : t.index = k
  line : t.requestLine = some r.line
  method : t.requestMethod = some r.method
  methodNumber : (r.method, t.requestMethodNumber) ∈ methods
  uri : t.requestUri = some r.uri
  protocol : t.requestProtocol = some r.protocol
  protocolNumber : (r.protocol, t.requestProtocolNumber) ∈ protocols
  notProtocol09 : t.isProtocol09 = false
  headers : t.requestHeaders = storedTable HFlag.FIELD_REPEATED (fieldsOf (r.headers ++ r.body.trailer))
  coding : t.requestTransferCoding = r.body.coding
  contentLength : t.requestContentLength = r.body.size
  bodyLength : t.requestEntityLen = r.body.content.length
  progress : t.requestProgress = .complete

/-- The transaction without what belongs to the response, and without the flags. -/
def requestSide (t : Tx) : Tx :=
  { t with
    responseIgnoredLines := 0, responseLine := none, responseProtocol := none, responseProtocolNumber := .unknown
    responseStatus := none, responseStatusNumber := .unknown, responseMessage := none, seen100Continue := false
    responseHeaders := [], isHttp2Upgrade := false, responseMessageLen := 0, responseEntityLen := 0
    responseContentLength := none, responseTransferCoding := .unknown, responseContentEncoding := .none
    responseContentEncodingProcessing := .none, responseContentType := none, responseDecompressor := none, flags := 0
    responseProgress := .notStarted, responseHeaderRepetitions := 0, responseHeaderParser := { side := .response } }

/-- Of the transaction only what belongs to the response. -/
def responseSide (t : Tx) : Tx :=
  { index := 0
    responseIgnoredLines := t.responseIgnoredLines, responseLine := t.responseLine, responseProtocol := t.responseProtocol
    responseProtocolNumber := t.responseProtocolNumber, responseStatus := t.responseStatus, responseStatusNumber := t.responseStatusNumber
    responseMessage := t.responseMessage, seen100Continue := t.seen100Continue, responseHeaders := t.responseHeaders
    isHttp2Upgrade := t.isHttp2Upgrade, responseMessageLen := t.responseMessageLen, responseEntityLen := t.responseEntityLen
    responseContentLength := t.responseContentLength, responseTransferCoding := t.responseTransferCoding, responseContentEncoding := t.responseContentEncoding
    responseContentEncodingProcessing := t.responseContentEncodingProcessing, responseContentType := t.responseContentType, responseDecompressor := t.responseDecompressor
    responseProgress := t.responseProgress, responseHeaderRepetitions := t.responseHeaderRepetitions, responseHeaderParser := t.responseHeaderParser }

/-- Nothing of the response has been seen. -/
def Unanswered (t : Tx) : Prop := responseSide t = { index := 0 }

/-- The environment does not stand in the way: the callbacks accept everything, decoding a URI does not overflow (it
can only where overflow panics and invalid escapes are processed), and so does the parameter processor, if any. -/
structure Willing (e : Env) : Prop where
  callbacks : CallbacksOK e
  decoding : e.ovf = false ∨ e.cfg.decoderCfg.urlEncodingInvalidHandling ≠ .processInvalid
  parameters : ∀ f, e.parameterProcessor = some f → ∀ name value, f name value = .ok ()

/-- The parser is between two requests. The transaction of the next one does not exist, or it has just been created,
and there are none beyond it. -/
structure BetweenRequests (s : Conn) : Prop where
  state : s.req.state = .idle
  buf : s.req.buf = []
  header : s.req.header = none
  receiver : s.req.receiver = none
  status : s.req.status = .new ∨ s.req.status = .open ∨ s.req.status = .data ∨ s.req.status = .dataOther
  next : s.txs.get s.txs.request = none ∨ s.txs.get s.txs.request = some { index := s.txs.request }
  beyond : ∀ j, s.txs.request < j → s.txs.get j = none

end Spec

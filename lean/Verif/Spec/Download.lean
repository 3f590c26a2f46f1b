/-
A response whose body follows in pieces, in some content coding, and ends where its length or the connection says.
-/
import Verif.Spec.Answer
import Verif.Spec.Decoder
import Verif.Spec.Decompression
import Verif.Spec.Framing

namespace Spec

open Model

/-- The head of a response. -/
structure ResponseHead where
  protocol : Bytes
  code : Nat
  message : Bytes
  headers : List HeaderLine

namespace ResponseHead

/-- The status line, without its end. -/
def line (r : ResponseHead) : Bytes := r.protocol ++ 32 :: (Spec.render 10 r.code ++ 32 :: r.message)

/-- The head as it is written. -/
def render (r : ResponseHead) : Bytes := r.line ++ [13, 10] ++ renderBlock r.headers

/-- This header field has this name (in any case). -/
def Has (r : ResponseHead) (name : Bytes) (h : HeaderLine) : Prop := h ∈ r.headers ∧ EqNocase h.name name

/-- There is one header field of this name, and its value is this. -/
def HasOne (r : ResponseHead) (name value : Bytes) : Prop :=
  ∃ before h after, r.headers = before ++ h :: after ∧ EqNocase h.name name ∧ h.value = value ∧
    ∀ h' ∈ before ++ after, ¬ EqNocase h'.name name

/-- One of the two protocols, a final status code, a message without line breaks or blanks before it and well-formed header
fields. -/
structure WellFormed (r : ResponseHead) : Prop where
  protocol : ∃ p, (r.protocol, p) ∈ protocols
  code : 200 ≤ r.code ∧ r.code ≤ 999
  message : (∀ c ∈ r.message, c ≠ 13 ∧ c ≠ 10) ∧ ∀ c ∈ r.message.head?, ¬ Blank c
  headers : ∀ h ∈ r.headers, h.WellFormed

/-- A body of `n` bytes is announced. -/
structure Sized (r : ResponseHead) (n : Nat) : Prop where
  notChunked : ∀ h, ¬ r.Has (b! "transfer-encoding") h
  some : ∃ h, r.Has (b! "content-length") h
  all : ∀ h, r.Has (b! "content-length") h → h.value = Spec.render 10 n
  fits : n < 2 ^ 64

/-- A body that ends with the connection: nothing announces its length, the status code is not one of a response without
body, and it is not split up (the type is not multipart/byteranges). -/
structure UntilClose (r : ResponseHead) : Prop where
  notChunked : ∀ h, ¬ r.Has (b! "transfer-encoding") h
  noLength : ∀ h, ¬ r.Has (b! "content-length") h
  code : r.code ≠ 204 ∧ r.code ≠ 304
  type : (∀ h, ¬ r.Has (b! "content-type") h) ∨
    ∃ v, r.HasOne (b! "content-type") v ∧ ¬ ByteRanges v

/-- The body is in these codings, the first of them applied first, and they are to be undone: there is no Content-Encoding
field (or decompression is switched off), or there is one that names one coding, or one that lists several, not more
than the limits allow. -/
inductive Coded (cfg : Config) (r : ResponseHead) : List Encoding → Prop
  | off : cfg.responseDecompressionEnabled = false → Coded cfg r []
  | none : (∀ h, ¬ r.Has (b! "content-encoding") h) → Coded cfg r []
  | one {v : Bytes} {enc : Encoding} : cfg.responseDecompressionEnabled = true → r.HasOne (b! "content-encoding") v →
      WholeNames v enc → Coded cfg r (if enc = .none then [] else [enc])
  | list {v : Bytes} : cfg.responseDecompressionEnabled = true → r.HasOne (b! "content-encoding") v →
      (∀ enc, ¬ WholeNames v enc) →
      (∀ n, cfg.compressionOptions.layerLimit = some n → (pieces v).length ≤ n) →
      (∀ n, cfg.compressionOptions.lzmaLayers = some n → (listed v).count .lzma ≤ n) → Coded cfg r (listed v)

end ResponseHead

/-- What the decompressors do, for the given decoding libraries. The number of steps they need is not known in advance, so:
they do what the model of src/decompressors.rs does with any sufficient number of steps. -/
def Decompresses (e : Env) (C : Codecs) (lzma : Bool) : Prop :=
  ∀ tr k d data outs, (∃ N, ∀ fuel, N ≤ fuel → decodingOutputs (chainDecoding C lzma fuel d data) = outs) →
    decodingOutputs (e.decoder tr k d data) = outs

/-- The transaction of a complete request that can be answered with a body: not CONNECT or HEAD, not HTTP/0.9, no "Expect". -/
structure AwaitsBody (t : Tx) : Prop where
  complete : t.requestProgress = .complete
  unanswered : Unanswered t
  notConnect : t.requestMethodNumber ≠ .connect
  notHead : t.requestMethodNumber ≠ .head
  notProtocol09 : t.isProtocol09 = false
  noExpect : t.requestHeaders.getNocase (b! "expect") = none

/-- The transaction that records a response with this head and a body of `coded` bytes on the wire, `decoded` bytes when
decoded. -/
structure RecordsDownload (t : Tx) (r : ResponseHead) (length : Option Nat) (coded decoded : Nat) : Prop where
  line : t.responseLine = some (r.line ++ [13, 10])
  protocol : t.responseProtocol = some r.protocol
  protocolNumber : (r.protocol, t.responseProtocolNumber) ∈ protocols
  status : t.responseStatus = some (Spec.render 10 r.code)
  statusNumber : t.responseStatusNumber = .valid r.code
  message : t.responseMessage = some r.message
  headers : t.responseHeaders = storedTable HFlag.FIELD_REPEATED (fieldsOf r.headers)
  coding : t.responseTransferCoding = .identity
  contentLength : t.responseContentLength = length
  messageLength : t.responseMessageLen = coded
  bodyLength : t.responseEntityLen = decoded
  progress : t.responseProgress = .complete

/-- The decoded size stays within the limits: after every piece, and at the end. (Nothing is checked if nothing is to be
decoded.) -/
structure SizesAllowed {C : Codecs} (o : CompressionOptions) (Ds : List (Decoder C)) (pieces : List Bytes) : Prop where
  onTheWay : ∀ done rest, pieces = done ++ rest → SizeAllowed o done.flatten.length (decodeAll Ds done.flatten).length
  atTheEnd : SizeAllowed o pieces.flatten.length (decodeEnd Ds pieces.flatten).length

/-- The callbacks run for the head of response `k`. -/
def ResponseHead.callbacks (r : ResponseHead) (k : Nat) : List Event :=
  [.tx .responseStart k, .tx .responseLine k,
   .data .responseHeaderData k (.ofBytes (renderBlock r.headers)), .tx .responseHeaders k]

/-- What a download does: the callbacks that are run, and what becomes of the transaction. The callbacks together carry the
decoded body; the end of the response and of the transaction are reported after it. -/
structure Downloaded (auto : Bool) (s s' : Conn) (r : ResponseHead) (length : Option Nat) (coded decoded : Bytes) : Prop where
  callbacks : ∃ ds : List Bytes, ds.flatten = decoded ∧ (∀ d ∈ ds, d ≠ []) ∧
    s'.trace = s.trace ++ (r.callbacks s.txs.response ++ (ds.flatMap (answerBodyCallbacks s.txs.response) ++
      [.tx .responseComplete s.txs.response, .tx .transactionComplete s.txs.response]))
  kept : if auto then s'.txs.get s.txs.response = none
    else ∃ t t', s.txs.get s.txs.response = some t ∧ s'.txs.get s.txs.response = some t' ∧
      RecordsDownload t' r length coded.length decoded.length ∧ requestSide t' = requestSide t
  next : s'.txs.response = s.txs.response + 1
  between : BetweenResponses s'

end Spec

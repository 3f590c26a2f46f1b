/-
What a C program does to read a message, and what it is to read if the message was well-formed.
-/
import Verif.Model.CRead
import Verif.Spec.CApi
import Verif.Spec.Dialogue

namespace Spec

open Model

/-- The memory at `p`: `n` bytes. Fails if there are not so many. -/
def readMemory (p : Ptr Bytes) (n : Int) : Option Bytes :=
  match p with
  | some m => if 0 ≤ n ∧ n ≤ m.length then some (m.take n.toNat) else none
  | none => none

/-- A loop over the table of header fields: `size` of them, the `i`-th is asked for with `at`. Name and value are read
with their pointers and lengths. -/
def readFields (size : Int) (fieldAt : Nat → Ptr Header) : List (Option Bytes × Option Bytes) :=
  (List.range size.toNat).map fun i =>
    (readMemory (headerName (fieldAt i)) (headerNameLen (fieldAt i)),
     readMemory (headerValue (fieldAt i)) (headerValueLen (fieldAt i)))

/-- A callback for the body adds what it is given to what it has. -/
def readPiece (d : PData) : Bytes := (readMemory (dataData (some d)) (dataLen (some d))).getD []

/-- What callbacks on this hook have collected for transaction `k`. -/
def collected (hook : DataHook) (k : Nat) : List Event → Bytes
  | [] => []
  | .data h j d :: es => (if h = hook ∧ j = k then readPiece d else []) ++ collected hook k es
  | .tx _ _ :: es => collected hook k es

open Classical in
/-- The values of the fields with this name, in order. -/
noncomputable def valuesOf (hs : List HeaderLine) (name : Bytes) : List Bytes :=
  (hs.filter fun h => decide (EqNocase h.name name)).map (·.value)

/-- What is told for a number that may be missing. -/
def orMinusOne : Option Nat → Int
  | some n => n
  | none => -1

open Classical in
/-- A lookup by name in the table of the fields `hs`: `look` is given a C string, which may be followed by anything. A
name that is not there gives NULL. Otherwise the value is that of all the fields with this name, joined with commas
(of Content-Length, the first). -/
def Finds (look : Ptr Bytes → Except Fault (Ptr Header)) (hs : List HeaderLine) : Prop :=
  look none = .ok none ∧
  ∀ name rest : Bytes, 0 ∉ name →
    (valuesOf hs name = [] → look (some (name ++ 0 :: rest)) = .ok none) ∧
    (∀ v vs, valuesOf hs name = v :: vs → ∃ h, look (some (name ++ 0 :: rest)) = .ok (some h) ∧ EqNocase h.name name ∧
      headerValue (some h) = some (if EqNocase name (b! "Content-Length") then v else joinComma (v :: vs)))

/-- `tx` reads as request `k`, which is `r`. -/
structure ReadsRequest (tx : Ptr Tx) (k : Nat) (r : Request) : Prop where
  index : TxNumber.index.call tx = k
  line : TxText.requestLine.call tx = some r.line
  method : TxText.requestMethod.call tx = some r.method
  methodNumber : (r.method, txRequestMethodNumber tx) ∈ methods
  uri : TxText.requestUri.call tx = some r.uri
  protocol : TxText.requestProtocol.call tx = some r.protocol
  protocolNumber : (r.protocol, txRequestProtocolNumber tx) ∈ protocols
  notProtocol09 : TxNumber.isProtocol09.call tx = 0
  fields : readFields (TxNumber.requestHeadersSize.call tx) (txRequestHeaderIndex tx) =
    (storedTable HFlag.FIELD_REPEATED (fieldsOf (r.headers ++ r.body.trailer))).map fun h => (some h.name, some h.value)
  beyond : ∀ i : Nat, TxNumber.requestHeadersSize.call tx ≤ i → txRequestHeaderIndex tx i = none
  table : ∀ i : Nat, headersGetIndex (txRequestHeaders tx) i = txRequestHeaderIndex tx i
  tableSize : headersSize (txRequestHeaders tx) = TxNumber.requestHeadersSize.call tx
  lookup : Finds (txRequestHeader tx) (r.headers ++ r.body.trailer)
  coding : txRequestTransferCoding tx = r.body.coding
  contentLength : TxNumber.requestContentLength.call tx = orMinusOne r.body.size
  bodyLength : TxNumber.requestEntityLen.call tx = r.body.content.length
  progress : txRequestProgress tx = .complete

/-- `tx` reads as having the response `r`. -/
structure ReadsResponse (tx : Ptr Tx) (r : Response) : Prop where
  line : TxText.responseLine.call tx = some (r.line ++ [13, 10])
  protocol : TxText.responseProtocol.call tx = some r.protocol
  protocolNumber : (r.protocol, txResponseProtocolNumber tx) ∈ protocols
  status : TxText.responseStatus.call tx = some (Spec.render 10 r.code)
  statusNumber : TxNumber.responseStatusNumber.call tx = r.code
  message : TxText.responseMessage.call tx = some r.message
  fields : readFields (TxNumber.responseHeadersSize.call tx) (txResponseHeaderIndex tx) =
    (storedTable HFlag.FIELD_REPEATED (fieldsOf (r.headers ++ r.body.trailer))).map fun h => (some h.name, some h.value)
  beyond : ∀ i : Nat, TxNumber.responseHeadersSize.call tx ≤ i → txResponseHeaderIndex tx i = none
  table : ∀ i : Nat, headersGetIndex (txResponseHeaders tx) i = txResponseHeaderIndex tx i
  tableSize : headersSize (txResponseHeaders tx) = TxNumber.responseHeadersSize.call tx
  lookup : Finds (txResponseHeader tx) (r.headers ++ r.body.trailer)
  contentLength : TxNumber.responseContentLength.call tx = orMinusOne r.body.size
  bodyLength : TxNumber.responseEntityLen.call tx = r.body.content.length
  progress : txResponseProgress tx = .complete

/-- `tx` reads as having no response: the texts and fields are missing, and the numbers say so. -/
structure ReadsNoResponse (tx : Ptr Tx) : Prop where
  texts : ∀ g ∈ [TxText.responseLine, .responseProtocol, .responseStatus, .responseMessage, .responseContentType],
    g.call tx = none
  statusNumber : TxNumber.responseStatusNumber.call tx = 0
  contentLength : TxNumber.responseContentLength.call tx = -1
  messageLength : TxNumber.responseMessageLen.call tx = 0
  bodyLength : TxNumber.responseEntityLen.call tx = 0
  fields : TxNumber.responseHeadersSize.call tx = 0 ∧ ∀ i, txResponseHeaderIndex tx i = none
  progress : txResponseProgress tx = .notStarted

/-- The numbers of a message are small enough to be told, and its header fields few enough for all their values to be
recorded. -/
structure Modest (headers : List HeaderLine) (body : Body) : Prop where
  fields : (headers ++ body.trailer).length ≤ 64
  block : (renderBlock (headers ++ body.trailer)).length < 2 ^ 63
  length : body.content.length < 2 ^ 63

/-- The same calls in C: the memory at the pointer may go on after the data. -/
def Turn.call (after : Bytes) : Turn → ConnCall
  | .ask qs => .requestData (some (qs.flatMap Request.render ++ after)) (qs.flatMap Request.render).length
  | .answer rs => .responseData (some (rs.flatMap Response.render ++ after)) (rs.flatMap Response.render).length

end Spec

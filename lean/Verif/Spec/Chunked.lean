/-
Chunked bodies (RFC 9112, 7.1) and the ways of cutting them into pieces.
-/
import Verif.Spec.Body
import Verif.Spec.Numeral

namespace Spec

open Model

/-- A chunk-size line for `n`: hexadecimal digits that denote `n`, possibly something else (an extension, the
CR), LF. -/
def SizeLine (line : Bytes) (n : Nat) : Prop :=
  ∃ ds ext, line = ds ++ ext ++ [10] ∧ ds ≠ [] ∧ (∀ c ∈ ds, IsHexDigit c) ∧ value 16 ds = n ∧
    (∀ c ∈ ext.head?, ¬ IsHexDigit c) ∧ (10 : UInt8) ∉ ext

/-- A chunk of a chunked body. -/
structure BodyChunk where
  line : Bytes
  data : Bytes

/-- Its size line announces its data, which is not empty (that would be the last chunk), and not too long for
the parser (C09). -/
def BodyChunk.Valid (c : BodyChunk) : Prop :=
  SizeLine c.line c.data.length ∧ c.data ≠ [] ∧ c.data.length ≤ 2147483647

/-- What is not cut: a whole size line, or a byte of anything else. -/
inductive Token where
  | line (l : Bytes)
  | byte (c : UInt8)

def Token.bytes : Token → Bytes
  | .line l => l
  | .byte c => [c]

/-- The bytes of some tokens. -/
def bytesOf (ts : List Token) : Bytes := ts.flatMap Token.bytes

/-- A chunk is its size line, its data and CR LF. -/
def BodyChunk.tokens (c : BodyChunk) : List Token := .line c.line :: (c.data ++ [13, 10]).map .byte

/-- The encoded chunks. -/
def encoded (cs : List BodyChunk) : List Token := cs.flatMap BodyChunk.tokens

/-- The body they carry. -/
def carried (cs : List BodyChunk) : Bytes := cs.flatMap BodyChunk.data

/-- A request body is being received and a chunk-size line is expected. No unfinished line is in the buffer
(white space there does no harm), no content coding, no raw header data being collected, the stream is alive;
the count of body bytes does not overflow if `n` bytes follow. -/
structure AwaitingRequestChunk (s : Conn) (n : Nat) : Prop where
  state : s.req.state = .bodyChunkedLength
  buf : ∀ c ∈ s.req.buf, c ∈ [0x0d, 0x0a, 0x20, 0x09, 0x0b, 0x0c]
  status : s.req.status = .open ∨ s.req.status = .data
  receiver : s.req.receiver = none
  tx : ∃ t, s.txs.get s.txs.request = some t ∧ t.requestProgress = .body ∧
    t.requestContentEncodingProcessing = .none ∧ t.requestEntityLen + n < 2 ^ 64

/-- The same for a response. -/
structure AwaitingResponseChunk (s : Conn) : Prop where
  state : s.resp.state = .bodyChunkedLength
  buf : ∀ c ∈ s.resp.buf, c ∈ [0x0d, 0x0a, 0x20, 0x09, 0x0b, 0x0c]
  status : s.resp.status = .open ∨ s.resp.status = .data
  receiver : s.resp.receiver = none
  tx : ∃ t, s.txs.get s.txs.response = some t ∧ t.responseProgress = .body ∧
    t.responseContentEncodingProcessing = .none

end Spec

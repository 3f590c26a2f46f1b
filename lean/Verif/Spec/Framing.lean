/-
Specification of what follows the headers of a response.
-/
import Verif.Spec.RequestHeaders
import Verif.Model.ConnResponse

namespace Spec

open Model

/-- What follows the headers of a response. -/
inductive Framing where
  | connected        -- the answer to CONNECT: a tunnel, yet to be looked at
  | upgraded         -- another protocol
  | interim          -- another response to the same request
  | empty            -- nothing
  | chunked          -- a chunked body
  | length (n : Nat) -- a body of `n` bytes
  | untilClose       -- a body that ends with the stream
  | refused          -- the library gives up
  deriving DecidableEq, Repr

/-- The status code is a number between `lo` and `hi`. -/
def Code (t : Tx) (lo hi : Nat) : Prop := ∃ n, t.responseStatusNumber = .valid n ∧ lo ≤ n ∧ n ≤ hi

/-- The content type (the text before a semicolon or a blank) names multipart/byteranges. -/
def ByteRanges (value : Bytes) : Prop :=
  ∃ i, OccursAt (value.takeWhile fun c => c ∉ [0x3b, 0x20, 0x09, 0x0a, 0x0b, 0x0c, 0x0d]) (b! "multipart/byteranges") i

open Classical in
/-- The documented precedence, given the fields Transfer-Encoding, Content-Length and Content-Type. -/
noncomputable def framing (t : Tx) (te cl ct : Option Header) : Framing :=
  if t.requestMethodNumber = .connect ∧ Code t 200 299 then .connected
  else if Code t 101 101 ∧ te = none ∧ cl = none then .upgraded
  else if Code t 100 100 ∧ te = none ∧ (∀ h, cl = some h → (parseContentLength h.value).getD 0 = 0) then .interim
  else if t.requestMethodNumber = .head then .empty
  else if (Code t 100 199 ∨ Code t 204 204 ∨ Code t 304 304) ∧ te = none ∧ cl = none then .empty
  else if ∃ h, te = some h ∧ Mentions h.value (b! "chunked") then .chunked
  else match cl with
    | some h =>
      match parseContentLength h.value with
      | some n => .length n
      | none => .refused
    | none => if ∃ h, ct = some h ∧ ByteRanges h.value then .refused else .untilClose

/-- How each of them shows: `s` is the parser before and `s'` afterwards, when the transaction is `t'`. -/
def Outcome (s : Conn) (s' : Conn) (t' : Tx) : Framing → Prop
  | .connected => s'.resp.state = .finalize ∧ s'.resp.status = s.resp.status ∧ s'.req = s.req
  | .upgraded => s'.resp.state = .finalize ∧ s'.resp.status = .tunnel ∧
      (s.req.status ≠ .error → s'.req.status = .tunnel)
  | .interim => s'.resp.state = .line ∧ s'.resp.status = s.resp.status ∧ t'.responseProgress = .line ∧
      t'.responseHeaders = [] ∧ t'.seen100Continue = true ∧ s'.trace = s.trace
  | .empty => s'.resp.state = .finalize ∧ s'.resp.status = s.resp.status ∧ t'.responseTransferCoding = .noBody
  | .chunked => s'.resp.state = .bodyChunkedLength ∧ s'.resp.status = s.resp.status ∧
      t'.responseTransferCoding = .chunked ∧ t'.responseProgress = .body
  | .length n => s'.resp.status = s.resp.status ∧ t'.responseTransferCoding = .identity ∧
      t'.responseContentLength = some n ∧
      (n = 0 → s'.resp.state = .finalize) ∧
      (n ≠ 0 → s'.resp.state = .bodyIdentityClKnown ∧ s'.resp.bodyDataLeft = some n ∧ t'.responseProgress = .body)
  | .untilClose => s'.resp.state = .bodyIdentityStreamClose ∧ s'.resp.status = s.resp.status ∧
      t'.responseTransferCoding = .identity ∧ t'.responseProgress = .body
  | .refused => s'.resp.status = s.resp.status

/-- When the framing of a response is ambiguous: chunked with a Content-Length field, or that field given twice. -/
def Ambiguous (cl : Option Header) : Framing → Prop
  | .chunked => ∃ h, cl = some h
  | .length _ | .refused => ∃ h, cl = some h ∧ isSet h.flags Flag.FIELD_REPEATED = true
  | _ => False

end Spec

/-
What the properties about message bodies speak about: what a chunk contains, and what the callbacks have been
given.
-/
import Verif.Spec.Conn

namespace Spec

open Model

/-- The content of a chunk, byte by byte; the bytes of a gap are unknown. -/
def content : Chunk → List (Option UInt8)
  | .data b => b.map some
  | .gap n => List.replicate n none

/-- The same for the data handed to a callback. -/
def handedOut (d : PData) : List (Option UInt8) :=
  match d.gapLen with
  | some _ => List.replicate d.len none
  | none => d.asSlice.map some

/-- What the callbacks of this hook have been given for transaction `k`. -/
def delivered (h : DataHook) (k : Nat) : List Event → List (Option UInt8)
  | [] => []
  | .data h' k' d :: evs => (if h' = h ∧ k' = k then handedOut d else []) ++ delivered h k evs
  | .tx _ _ :: evs => delivered h k evs

/-- Every callback answers OK. -/
def CallbacksOK (e : Env) : Prop := ∀ tr ev, e.hook tr ev = .ok ()

/-- The parser after it was fed these chunks, one call each. -/
def feedRequest (e : Env) (cs : List Chunk) (s : Conn) : Conn :=
  cs.foldl (fun s c => (Op.request c).after e s) s
def feedResponse (e : Env) (cs : List Chunk) (s : Conn) : Conn :=
  cs.foldl (fun s c => (Op.response c).after e s) s

/-- The answers to these calls. -/
def requestAnswers (e : Env) : List Chunk → Conn → List (Except Err (Option StreamState))
  | [], _ => []
  | c :: cs, s => ((Op.request c).run e s).1 :: requestAnswers e cs ((Op.request c).after e s)
def responseAnswers (e : Env) : List Chunk → Conn → List (Except Err (Option StreamState))
  | [], _ => []
  | c :: cs, s => ((Op.response c).run e s).1 :: responseAnswers e cs ((Op.response c).after e s)

/-- A request body of known length is being received and `n` bytes of it are missing: no content coding, no raw
header data being collected, the stream is alive. (The last field: the count of body bytes does not overflow.) -/
structure ReceivingRequest (s : Conn) (n : Nat) : Prop where
  state : s.req.state = .bodyIdentity
  left : s.req.bodyDataLeft = some n
  status : s.req.status = .open ∨ s.req.status = .data
  receiver : s.req.receiver = none
  tx : ∃ t, s.txs.get s.txs.request = some t ∧ t.requestProgress = .body ∧
    t.requestContentEncodingProcessing = .none ∧ t.requestEntityLen + n < 2 ^ 64

/-- The same for a response. -/
structure ReceivingResponse (s : Conn) (n : Nat) : Prop where
  state : s.resp.state = .bodyIdentityClKnown
  left : s.resp.bodyDataLeft = some n
  status : s.resp.status = .open ∨ s.resp.status = .data
  receiver : s.resp.receiver = none
  tx : ∃ t, s.txs.get s.txs.response = some t ∧ t.responseProgress = .body ∧
    t.responseContentEncodingProcessing = .none

/-- A response body that ends with the stream is being received. -/
structure ReceivingUntilClose (s : Conn) : Prop where
  state : s.resp.state = .bodyIdentityStreamClose
  status : s.resp.status = .open ∨ s.resp.status = .data
  receiver : s.resp.receiver = none
  tx : ∃ t, s.txs.get s.txs.response = some t ∧ t.responseProgress = .body ∧
    t.responseContentEncodingProcessing = .none

end Spec

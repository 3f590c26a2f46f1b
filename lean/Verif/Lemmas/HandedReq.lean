/-
The functions of the request side that hand out no body data leave its length alone.
-/
import Verif.Lemmas.Handed

namespace Model

open M Spec

/-- Closes the goals the walk leaves. -/
macro "even_leaf'" : tactic => `(tactic|
  first
  | assumption
  | (refine ReqEven.other (by assumption) ?_ ?_ ?_ <;> first | rfl | exact Or.inl rfl | (simp; done))
  | (refine ReqEven.emit (by assumption) ?_; rfl)
  | (refine ReqLen.same (by assumption) ?_; with_reducible first
    | exact Tx.lens_processRequestHeaders _ _
    | exact Tx.lens_initRequestDecompressors _ _
    | exact Tx.lens_parseRequestLine _ _
    | exact Tx.lens_parseRequestHeaders _ _
    | exact Tx.lens_readRequestLine _ _ _)
  | (rename_i ht; exact ReqLen.same ht rfl)
  | (rename_i ht _; exact ReqLen.same ht rfl)
  | (rename_i ht _ _; exact ReqLen.same ht rfl)
  | (rename_i ht _ _ _; exact ReqLen.same ht rfl))

section
variable {k r n : Nat}

theorem requestConsume_even (m : Nat) : Keeps (ReqEven k r n) Any (requestConsume m) := by
  unfold requestConsume
  even_walk <;> even_leaf'

macro_rules | `(tactic| even_known) => `(tactic| exact requestConsume_even _)

theorem requestUnconsume_even (m : Nat) : Keeps (ReqEven k r n) Any (requestUnconsume m) := by
  unfold requestUnconsume
  even_walk <;> even_leaf'

macro_rules | `(tactic| even_known) => `(tactic| exact requestUnconsume_even _)

theorem requestReceiverSendData_even (e : Env) : Keeps (ReqEven k r n) Any (requestReceiverSendData e) := by
  unfold requestReceiverSendData
  refine Keeps.bind_state fun s1 h1 => ?_
  refine Keeps.bind (F := Any) (by even_walk; even_leaf') fun _ _ => ?_
  refine Keeps.bind (Keeps.requestTx ReqEven.stable) fun t ht => ?_
  cases hr : s1.req.receiver with
  | none => exact Keeps.pure
  | some x =>
    refine Keeps.emit fun s h => h.emit ?_
    have hx : x ≠ .requestBodyDataTx := fun hx => h1.receiver (by rw [hr, hx])
    exact if_neg fun h => hx h.1

macro_rules | `(tactic| even_known) => `(tactic| exact requestReceiverSendData_even _)

theorem requestReceiverFinalizeClear_even (e : Env) : Keeps (ReqEven k r n) Any (requestReceiverFinalizeClear e) := by
  unfold requestReceiverFinalizeClear
  even_walk <;> even_leaf'

macro_rules | `(tactic| even_known) => `(tactic| exact requestReceiverFinalizeClear_even _)

theorem requestSetReceiver_even (e : Env) : Keeps (ReqEven k r n) Any (requestSetReceiver e) := by
  unfold requestSetReceiver
  even_walk <;> even_leaf'

macro_rules | `(tactic| even_known) => `(tactic| exact requestSetReceiver_even _)

theorem requestHandleStateChange_even (e : Env) : Keeps (ReqEven k r n) Any (requestHandleStateChange e) := by
  unfold requestHandleStateChange
  even_walk <;> even_leaf'

macro_rules | `(tactic| even_known) => `(tactic| exact requestHandleStateChange_even _)

theorem handleRequestAbsentLf_even (e : Env) : Keeps (ReqEven k r n) Any (handleRequestAbsentLf e) := by
  unfold handleRequestAbsentLf
  even_walk <;> even_leaf'

macro_rules | `(tactic| even_known) => `(tactic| exact handleRequestAbsentLf_even _)

theorem stateRequestStart_even (e : Env) : Keeps (ReqEven k r n) Any (stateRequestStart e) := by
  unfold stateRequestStart
  even_walk <;> even_leaf'

macro_rules | `(tactic| even_known) => `(tactic| exact stateRequestStart_even _)

theorem stateRequestTrailer_even (e : Env) : Keeps (ReqEven k r n) Any (stateRequestTrailer e) := by
  unfold stateRequestTrailer
  even_walk <;> even_leaf'

macro_rules | `(tactic| even_known) => `(tactic| exact stateRequestTrailer_even _)

theorem stateRequestHeadersDone_even (e : Env) : Keeps (ReqEven k r n) Any (stateRequestHeadersDone e) := by
  unfold stateRequestHeadersDone
  even_walk <;> (first | (rename_i ht; with_reducible exact ReqLen.same ht (Tx.lens_processRequestHeaders _ _)) | (rename_i ht; with_reducible exact ReqLen.same ht (Tx.lens_initRequestDecompressors _ _)) | even_leaf')

macro_rules | `(tactic| even_known) => `(tactic| exact stateRequestHeadersDone_even _)

theorem stateRequestHeaders_even (e : Env) : Keeps (ReqEven k r n) Any (stateRequestHeaders e) := by
  unfold stateRequestHeaders
  even_walk <;> even_leaf'

macro_rules | `(tactic| even_known) => `(tactic| exact stateRequestHeaders_even _)

theorem stateRequestLine_even (e : Env) : Keeps (ReqEven k r n) Any (stateRequestLine e) := by
  unfold stateRequestLine
  even_walk <;> (first | (rename_i ht; with_reducible exact ReqLen.same ht (Tx.lens_parseRequestLine _ _)) | (rename_i ht _ _ hu; with_reducible exact ReqLen.same ht (Tx.lens_storeNormalizedUri _ _ hu)) | even_leaf')

macro_rules | `(tactic| even_known) => `(tactic| exact stateRequestLine_even _)

theorem finalizeTx_even (e : Env) (i : Nat) : Keeps (ReqEven k r n) Any (finalizeTx e i) := by
  unfold finalizeTx
  even_walk <;> even_leaf'

macro_rules | `(tactic| even_known) => `(tactic| exact finalizeTx_even _ _)

theorem requestConnectCheck_even (e : Env) : Keeps (ReqEven k r n) Any (requestConnectCheck e) := by
  unfold requestConnectCheck
  even_walk <;> even_leaf'

macro_rules | `(tactic| even_known) => `(tactic| exact requestConnectCheck_even _)

theorem requestConnectWaitResponse_even (e : Env) : Keeps (ReqEven k r n) Any (requestConnectWaitResponse e) := by
  unfold requestConnectWaitResponse
  even_walk <;> even_leaf'

macro_rules | `(tactic| even_known) => `(tactic| exact requestConnectWaitResponse_even _)

theorem requestBodyChunkedDataEnd_even (e : Env) : Keeps (ReqEven k r n) Any (requestBodyChunkedDataEnd e) := by
  unfold requestBodyChunkedDataEnd
  even_walk <;> even_leaf'

macro_rules | `(tactic| even_known) => `(tactic| exact requestBodyChunkedDataEnd_even _)

theorem requestChunkLine_even (e : Env) (l : Bytes) : Keeps (ReqEven k r n) Any (requestChunkLine e l) := by
  unfold requestChunkLine
  even_walk <;> even_leaf'

macro_rules | `(tactic| even_known) => `(tactic| exact requestChunkLine_even _ _)

theorem requestChunkedLengthLoop_even (e : Env) (d : Bytes) : Keeps (ReqEven k r n) Any (requestChunkedLengthLoop e d) := by
  induction hl : d.length using Nat.strongRecOn generalizing d with
  | ind n ih =>
    unfold requestChunkedLengthLoop
    split
    next remaining line hl2 =>
      have := takeTillIncl_shorter hl2
      have ih := ih remaining.length (by omega) remaining rfl
      even_walk <;> even_leaf'
    all_goals
      even_walk <;> even_leaf'

macro_rules | `(tactic| even_known) => `(tactic| exact requestChunkedLengthLoop_even _ _)

theorem requestBodyChunkedLength_even (e : Env) : Keeps (ReqEven k r n) Any (requestBodyChunkedLength e) := by
  unfold requestBodyChunkedLength
  even_walk <;> even_leaf'

macro_rules | `(tactic| even_known) => `(tactic| exact requestBodyChunkedLength_even _)

theorem requestBodyDetermine_even (e : Env) : Keeps (ReqEven k r n) Any (requestBodyDetermine e) := by
  unfold requestBodyDetermine
  even_walk <;> even_leaf'

macro_rules | `(tactic| even_known) => `(tactic| exact requestBodyDetermine_even _)

theorem requestHeadersClosed_even (e : Env) : Keeps (ReqEven k r n) Any (requestHeadersClosed e) := by
  unfold requestHeadersClosed
  even_walk <;> (first | (rename_i ht; with_reducible exact ReqLen.same ht (Tx.lens_parseRequestHeaders _ _)) | even_leaf')

macro_rules | `(tactic| even_known) => `(tactic| exact requestHeadersClosed_even _)

theorem requestHeaders_even (e : Env) : Keeps (ReqEven k r n) Any (requestHeaders e) := by
  unfold requestHeaders
  even_walk <;> (first | (rename_i ht; with_reducible exact ReqLen.same ht (Tx.lens_parseRequestHeaders _ _)) | even_leaf')

macro_rules | `(tactic| even_known) => `(tactic| exact requestHeaders_even _)

theorem requestProtocol_even (e : Env) : Keeps (ReqEven k r n) Any (requestProtocol e) := by
  unfold requestProtocol
  even_walk <;> even_leaf'

macro_rules | `(tactic| even_known) => `(tactic| exact requestProtocol_even _)

theorem requestLineComplete_even (e : Env) (l : Bytes) : Keeps (ReqEven k r n) Any (requestLineComplete e l) := by
  unfold requestLineComplete
  even_walk <;> (first | (rename_i ht _; with_reducible exact ReqLen.same ht (Tx.lens_readRequestLine _ _ _)) | even_leaf')

macro_rules | `(tactic| even_known) => `(tactic| exact requestLineComplete_even _ _)

theorem requestLine_even (e : Env) : Keeps (ReqEven k r n) Any (requestLine e) := by
  unfold requestLine
  even_walk <;> even_leaf'

macro_rules | `(tactic| even_known) => `(tactic| exact requestLine_even _)

theorem requestIgnoreDataAfterHttp09_even : Keeps (ReqEven k r n) Any (requestIgnoreDataAfterHttp09) := by
  unfold requestIgnoreDataAfterHttp09
  even_walk <;> even_leaf'

macro_rules | `(tactic| even_known) => `(tactic| exact requestIgnoreDataAfterHttp09_even)

theorem requestReset_even : Keeps (ReqEven k r n) Any (requestReset) := by
  unfold requestReset
  even_walk <;> even_leaf'

macro_rules | `(tactic| even_known) => `(tactic| exact requestReset_even)

theorem requestIdle_even (e : Env) : Keeps (ReqEven k r n) Any (requestIdle e) := by
  unfold requestIdle
  even_walk <;> even_leaf'

macro_rules | `(tactic| even_known) => `(tactic| exact requestIdle_even _)

theorem requestAfterStep_even (e : Env) (rc : Except Status Unit) : Keeps (ReqEven k r n) Any (requestAfterStep e rc) := by
  unfold requestAfterStep requestReturn
  even_walk <;> even_leaf'

macro_rules | `(tactic| even_known) => `(tactic| exact requestAfterStep_even _ _)

theorem requestNoteGap_even (e : Env) : Keeps (ReqEven k r n) Any (requestNoteGap e) := by
  unfold requestNoteGap requestReturn
  refine Keeps.bind (Keeps.attempt_result (Keeps.requestTx ReqEven.stable)) fun t ht => ?_
  cases t with
  | error x => exact Keeps.pure
  | ok t =>
    have ht : ReqLen k r n t := ht t rfl
    even_walk <;> first | even_leaf' | exact ReqLen.same ht rfl

macro_rules | `(tactic| even_known) => `(tactic| exact requestNoteGap_even _)

end

end Model

/-
The functions of the response side that hand out no body data leave its length alone.
-/
import Verif.Lemmas.Handed
import Verif.Lemmas.ApartResp

namespace Model

open M Spec

/-- Closes the goals the walk leaves. -/
macro "even_leaf" : tactic => `(tactic|
  first
  | assumption
  | (refine RespEven.other (by assumption) ?_ ?_ ?_ <;> first | rfl | exact Or.inl rfl | (simp; done))
  | (refine RespEven.emit (by assumption) ?_; rfl)
  | (refine RespLen.same (by assumption) ?_; first
    | exact Tx.lens_validateResponseLine _
    | exact Tx.lens_parseResponseHeaders _ _
    | exact Tx.lens_readResponseLine _ _
    | exact Tx.lens_initResponseDecompressors _ _)
  | (rename_i ht; exact RespLen.same ht rfl)
  | (rename_i ht _; exact RespLen.same ht rfl)
  | (rename_i ht _ _; exact RespLen.same ht rfl)
  | (rename_i ht _ _ _; exact RespLen.same ht rfl))

section
variable {k r n : Nat}

theorem responseConsume_even (m : Nat) : Keeps (RespEven k r n) Any (responseConsume m) := by
  unfold responseConsume
  even_walk <;> even_leaf

macro_rules | `(tactic| even_known) => `(tactic| exact responseConsume_even _)

theorem responseUnconsume_even (m : Nat) : Keeps (RespEven k r n) Any (responseUnconsume m) := by
  unfold responseUnconsume
  even_walk <;> even_leaf

macro_rules | `(tactic| even_known) => `(tactic| exact responseUnconsume_even _)

theorem responseReceiverSendData_even (e : Env) : Keeps (RespEven k r n) Any (responseReceiverSendData e) := by
  unfold responseReceiverSendData
  refine Keeps.bind_state fun s1 h1 => ?_
  refine Keeps.bind (F := Any) (by even_walk; even_leaf) fun _ _ => ?_
  refine Keeps.bind (Keeps.responseTx RespEven.stable) fun t ht => ?_
  cases hr : s1.resp.receiver with
  | none => exact Keeps.pure
  | some x =>
    refine Keeps.emit fun s h => h.emit ?_
    have hx : x ≠ .responseBodyDataTx := fun hx => h1.receiver (by rw [hr, hx])
    exact if_neg fun h => hx h.1

macro_rules | `(tactic| even_known) => `(tactic| exact responseReceiverSendData_even _)

theorem responseReceiverFinalizeClear_even (e : Env) : Keeps (RespEven k r n) Any (responseReceiverFinalizeClear e) := by
  unfold responseReceiverFinalizeClear
  even_walk <;> even_leaf

macro_rules | `(tactic| even_known) => `(tactic| exact responseReceiverFinalizeClear_even _)

theorem responseHandleStateChange_even (e : Env) : Keeps (RespEven k r n) Any (responseHandleStateChange e) := by
  unfold responseHandleStateChange responseSetReceiver
  even_walk <;> even_leaf

macro_rules | `(tactic| even_known) => `(tactic| exact responseHandleStateChange_even _)

theorem handleResponseAbsentLf_even (e : Env) : Keeps (RespEven k r n) Any (handleResponseAbsentLf e) := by
  unfold handleResponseAbsentLf
  even_walk <;> even_leaf

macro_rules | `(tactic| even_known) => `(tactic| exact handleResponseAbsentLf_even _)

theorem responseBodyChunkedDataEnd_even (e : Env) : Keeps (RespEven k r n) Any (responseBodyChunkedDataEnd e) := by
  unfold responseBodyChunkedDataEnd
  even_walk <;> even_leaf

macro_rules | `(tactic| even_known) => `(tactic| exact responseBodyChunkedDataEnd_even _)

theorem responseChunkLine_even (e : Env) (line : Bytes) : Keeps (RespEven k r n) Any (responseChunkLine e line) := by
  unfold responseChunkLine
  even_walk <;> even_leaf

macro_rules | `(tactic| even_known) => `(tactic| exact responseChunkLine_even _ _)

theorem responseChunkedLengthLoop_even (e : Env) (d : Bytes) : Keeps (RespEven k r n) Any (responseChunkedLengthLoop e d) := by
  induction hd : d.length using Nat.strongRecOn generalizing d with
  | ind n ih =>
    unfold responseChunkedLengthLoop
    refine Keeps.bind (Keeps.responseTx RespEven.stable) fun t ht => ?_
    split
    next remaining line hl2 =>
      have := takeTillIncl_shorter hl2
      have ih := ih remaining.length (by omega) remaining rfl
      even_walk <;> even_leaf
    all_goals even_walk <;> even_leaf

macro_rules | `(tactic| even_known) => `(tactic| exact responseChunkedLengthLoop_even _ _)

theorem responseBodyChunkedLength_even (e : Env) : Keeps (RespEven k r n) Any (responseBodyChunkedLength e) := by
  unfold responseBodyChunkedLength
  even_walk <;> even_leaf

macro_rules | `(tactic| even_known) => `(tactic| exact responseBodyChunkedLength_even _)

theorem stateResponseHeaders_even (e : Env) : Keeps (RespEven k r n) Any (stateResponseHeaders e) := by
  unfold stateResponseHeaders
  even_walk <;> even_leaf

macro_rules | `(tactic| even_known) => `(tactic| exact stateResponseHeaders_even _)

theorem stateResponseLine_even (e : Env) : Keeps (RespEven k r n) Any (stateResponseLine e) := by
  unfold stateResponseLine
  even_walk <;> even_leaf

macro_rules | `(tactic| even_known) => `(tactic| exact stateResponseLine_even _)

theorem requestParserCheckWaiting_even : Keeps (RespEven k r n) Any requestParserCheckWaiting := by
  unfold requestParserCheckWaiting
  even_walk <;> even_leaf

macro_rules | `(tactic| even_known) => `(tactic| exact requestParserCheckWaiting_even)

theorem unblockRequest_even : Keeps (RespEven k r n) Any unblockRequest := by
  unfold unblockRequest
  exact Keeps.modify fun _ h => h.other rfl rfl (Or.inl rfl)

macro_rules | `(tactic| even_known) => `(tactic| exact unblockRequest_even)

theorem responseSwitch_even : Keeps (RespEven k r n) Any responseSwitch := by
  unfold responseSwitch
  exact Keeps.modify fun _ h => h.other rfl rfl (Or.inl rfl)

macro_rules | `(tactic| even_known) => `(tactic| exact responseSwitch_even)

theorem responseConnect_even (e : Env) : Keeps (RespEven k r n) Any (responseConnect e) := by
  unfold responseConnect
  even_walk <;> even_leaf

macro_rules | `(tactic| even_known) => `(tactic| exact responseConnect_even _)

theorem responseContinue_even (e : Env) : Keeps (RespEven k r n) Any (responseContinue e) := by
  unfold responseContinue
  even_walk <;> even_leaf

macro_rules | `(tactic| even_known) => `(tactic| exact responseContinue_even _)

theorem responseExpect_even (e : Env) : Keeps (RespEven k r n) Any (responseExpect e) := by
  unfold responseExpect
  even_walk <;> even_leaf

macro_rules | `(tactic| even_known) => `(tactic| exact responseExpect_even _)

theorem responseInterim_even (e : Env) (te : Option Header) (cl : Option Header) : Keeps (RespEven k r n) Any (responseInterim e te cl) := by
  unfold responseInterim
  even_walk <;> even_leaf

macro_rules | `(tactic| even_known) => `(tactic| exact responseInterim_even _ _ _)

theorem responseNoBody_even (e : Env) (te : Option Header) (cl : Option Header) : Keeps (RespEven k r n) Any (responseNoBody e te cl) := by
  unfold responseNoBody
  even_walk <;> even_leaf

macro_rules | `(tactic| even_known) => `(tactic| exact responseNoBody_even _ _ _)

theorem responseChunked_even (e : Env) (cl : Option Header) : Keeps (RespEven k r n) Any (responseChunked e cl) := by
  unfold responseChunked
  even_walk <;> even_leaf

macro_rules | `(tactic| even_known) => `(tactic| exact responseChunked_even _ _)

theorem responseLength_even (e : Env) (cl : Header) : Keeps (RespEven k r n) Any (responseLength e cl) := by
  unfold responseLength
  even_walk <;> even_leaf

macro_rules | `(tactic| even_known) => `(tactic| exact responseLength_even _ _)

theorem responseUntilClose_even (e : Env) (b0 : Bool) : Keeps (RespEven k r n) Any (responseUntilClose e b0) := by
  unfold responseUntilClose
  even_walk <;> even_leaf

macro_rules | `(tactic| even_known) => `(tactic| exact responseUntilClose_even _ _)

theorem responseFraming_even (e : Env) (te : Option Header) (cl : Option Header) : Keeps (RespEven k r n) Any (responseFraming e te cl) := by
  unfold responseFraming
  even_walk <;> even_leaf

macro_rules | `(tactic| even_known) => `(tactic| exact responseFraming_even _ _ _)

theorem responseBody_even (e : Env) (te : Option Header) (cl : Option Header) : Keeps (RespEven k r n) Any (responseBody e te cl) := by
  unfold responseBody
  even_walk <;> even_leaf

macro_rules | `(tactic| even_known) => `(tactic| exact responseBody_even _ _ _)

theorem responseDetermineRest_even (e : Env) : Keeps (RespEven k r n) Any (responseDetermineRest e) := by
  unfold responseDetermineRest
  even_walk <;> even_leaf

macro_rules | `(tactic| even_known) => `(tactic| exact responseDetermineRest_even _)

theorem responseBodyDetermine_even (e : Env) : Keeps (RespEven k r n) Any (responseBodyDetermine e) := by
  unfold responseBodyDetermine
  even_walk <;> even_leaf

macro_rules | `(tactic| even_known) => `(tactic| exact responseBodyDetermine_even _)

theorem responseTrailer_even (e : Env) : Keeps (RespEven k r n) Any (responseTrailer e) := by
  unfold responseTrailer
  even_walk <;> even_leaf

macro_rules | `(tactic| even_known) => `(tactic| exact responseTrailer_even _)

theorem responseHeadersClosed_even (e : Env) : Keeps (RespEven k r n) Any (responseHeadersClosed e) := by
  unfold responseHeadersClosed
  even_walk <;> even_leaf

macro_rules | `(tactic| even_known) => `(tactic| exact responseHeadersClosed_even _)

theorem responseHeadersDone_even (e : Env) : Keeps (RespEven k r n) Any (responseHeadersDone e) := by
  unfold responseHeadersDone
  even_walk <;> even_leaf

macro_rules | `(tactic| even_known) => `(tactic| exact responseHeadersDone_even _)

theorem responseHeaders_even (e : Env) : Keeps (RespEven k r n) Any (responseHeaders e) := by
  unfold responseHeaders
  even_walk <;> even_leaf

macro_rules | `(tactic| even_known) => `(tactic| exact responseHeaders_even _)

theorem stateResponseStart_even (e : Env) : Keeps (RespEven k r n) Any (stateResponseStart e) := by
  unfold stateResponseStart
  even_walk <;> even_leaf

macro_rules | `(tactic| even_known) => `(tactic| exact stateResponseStart_even _)

theorem responseAfterStep_even (e : Env) (rc : Except Status Unit) : Keeps (RespEven k r n) Any (responseAfterStep e rc) := by
  unfold responseAfterStep responseReturn
  even_walk <;> even_leaf

macro_rules | `(tactic| even_known) => `(tactic| exact responseAfterStep_even _ _)

theorem responseNoteGap_even (e : Env) : Keeps (RespEven k r n) Any (responseNoteGap e) := by
  unfold responseNoteGap responseReturn
  refine Keeps.bind (Keeps.attempt_result (Keeps.responseTx RespEven.stable)) fun t ht => ?_
  cases t with
  | error x => exact Keeps.pure
  | ok t =>
    have ht : RespLen k r n t := ht t rfl
    even_walk <;> first | even_leaf | exact RespLen.same ht rfl

macro_rules | `(tactic| even_known) => `(tactic| exact responseNoteGap_even _)

end

end Model

/-
The response machine obeys refusals.
-/
import Verif.Lemmas.ObeysReq
import Verif.Lemmas.ApartResp

namespace Model

open M Spec

section
variable {base : Nat}

theorem responseConsume_obeys {e : Env} (n : Nat) : Obeys e base Any (responseConsume n) := by
  unfold responseConsume
  obeys_walk <;> obeys_leaf

macro_rules | `(tactic| obeys_known) => `(tactic| exact responseConsume_obeys _)

theorem responseUnconsume_obeys {e : Env} (n : Nat) : Obeys e base Any (responseUnconsume n) := by
  unfold responseUnconsume
  obeys_walk <;> obeys_leaf

macro_rules | `(tactic| obeys_known) => `(tactic| exact responseUnconsume_obeys _)

/-- Raw headers are not obeyed: the state stays clean. -/
theorem responseReceiverSendData_clean (e : Env) : Keeps (Clean e base) Any (responseReceiverSendData e) := by
  unfold responseReceiverSendData
  refine Keeps.bind_state fun s hs => ?_
  refine Keeps.bind (F := Any) (Keeps.modify fun s h => h.mod rfl rfl (.inl rfl) (.inl rfl)) fun _ _ => ?_
  refine Keeps.bind (Keeps.responseTx clean_resp) fun t ht => ?_
  have hr := hs.plain.resp
  split
  · rename_i k hk
    rw [hk] at hr
    refine Keeps.emit fun s h => h.event ?_
    intro ho
    cases k <;> first | exact ho.elim | exact hr.elim
  · exact Keeps.pure

theorem responseReceiverFinalizeClear_obeys (e : Env) : Obeys e base Any (responseReceiverFinalizeClear e) := by
  unfold responseReceiverFinalizeClear
  refine Obeys.bind_state fun s hs => ?_
  split
  · exact Obeys.of_keeps Keeps.pure
  · refine Obeys.of_keeps ?_
    refine Keeps.bind (F := Any) (Keeps.attempt (responseReceiverSendData_clean e)) fun _ _ => ?_
    exact Keeps.bind (F := Any) (Keeps.setResp fun s h => h.mod rfl rfl (.inl rfl) (.inr trivial)) fun _ _ => Keeps.ofExcept

macro_rules | `(tactic| obeys_known) => `(tactic| exact responseReceiverFinalizeClear_obeys _)

theorem responseHandleStateChange_obeys (e : Env) : Obeys e base Any (responseHandleStateChange e) := by
  unfold responseHandleStateChange responseSetReceiver
  obeys_walk <;> obeys_leaf

macro_rules | `(tactic| obeys_known) => `(tactic| exact responseHandleStateChange_obeys _)

theorem handleResponseAbsentLf_obeys (e : Env) : Obeys e base Any (handleResponseAbsentLf e) := by
  unfold handleResponseAbsentLf
  obeys_walk <;> obeys_leaf

macro_rules | `(tactic| obeys_known) => `(tactic| exact handleResponseAbsentLf_obeys _)

theorem responseRunHookBodyData_obeys (e : Env) (d : PData) : Obeys e base Any (responseRunHookBodyData e d) := by
  unfold responseRunHookBodyData
  obeys_walk <;> obeys_leaf

macro_rules | `(tactic| obeys_known) => `(tactic| exact responseRunHookBodyData_obeys _ _)

/-- The callbacks for the bodies of responses are not obeyed when these are decompressed. -/
theorem responseRunHookBodyData_clean (e : Env) (hc : e.cfg.responseDecompressionEnabled = true) (d : PData) :
    Keeps (Clean e base) Any (responseRunHookBodyData e d) := by
  unfold responseRunHookBodyData
  refine Keeps.ite (fun _ => Keeps.pure) fun _ => ?_
  refine Keeps.bind (Keeps.responseTx clean_resp) fun t ht => ?_
  refine Keeps.bind_state fun s hs => ?_
  refine Keeps.bind (F := Any) ?_ fun _ _ => ?_
  all_goals
    refine Keeps.emit fun s h => h.event fun ho => ?_
    have ho : e.cfg.responseDecompressionEnabled = false := ho
    rw [hc] at ho
    cases ho

theorem responseDecompressorCallback_clean (e : Env) (hc : e.cfg.responseDecompressionEnabled = true) (o : Option Bytes) :
    Keeps (Clean e base) Any (responseDecompressorCallback e o) := by
  unfold responseDecompressorCallback
  refine Keeps.bind (Keeps.responseTx clean_resp) fun t ht => ?_
  refine Keeps.bind (F := Any) (Keeps.putResponse clean_resp (ht.coding rfl)) fun _ _ => ?_
  refine Keeps.bind (responseRunHookBodyData_clean e hc _) fun _ _ => ?_
  refine Keeps.bind (Keeps.responseTx clean_resp) fun t ht => ?_
  exact Keeps.ite (fun _ => Keeps.pure) fun _ => Keeps.fail

theorem responseDecompress_clean (e : Env) (hc : e.cfg.responseDecompressionEnabled = true) (o : Option Bytes) :
    Keeps (Clean e base) Any (responseDecompress e o) := by
  unfold responseDecompress
  refine Keeps.bind (Keeps.responseTx clean_resp) fun t ht => ?_
  split
  · exact Keeps.pure
  · exact Keeps.fail
  · refine Keeps.bind (F := Any) (Keeps.putResponse clean_resp (ht.coding rfl)) fun _ _ => ?_
    refine Keeps.bind_state fun s hs => ?_
    exact Keeps.bind (Keeps.runDecoding (fun o => responseDecompressorCallback_clean e hc o) _) fun _ _ => Keeps.pure
  · refine Keeps.bind (F := Any) (Keeps.putResponse clean_resp (ht.coding rfl)) fun _ _ => ?_
    refine Keeps.bind_state fun s hs => ?_
    refine Keeps.bind (Keeps.runDecoding (fun o => responseDecompressorCallback_clean e hc o) _) fun _ _ => ?_
    exact Keeps.ite (fun _ => Keeps.modifyResponse clean_resp fun t ht => ht.coding rfl) fun _ => Keeps.fail

theorem responsePlainBody_obeys (e : Env) (o : Option Bytes) : Obeys e base Any (responsePlainBody e o) := by
  unfold responsePlainBody
  obeys_walk <;> obeys_leaf

macro_rules | `(tactic| obeys_known) => `(tactic| exact responsePlainBody_obeys _ _)

theorem responseBodyData_obeys (e : Env) (o : Option Bytes) : Obeys e base Any (responseBodyData e o) := by
  unfold responseBodyData
  refine Obeys.bind (Obeys.of_keeps (Keeps.responseTx clean_resp)) fun t ht => ?_
  refine Obeys.bind (F := Any) (Obeys.of_keeps (Keeps.putResponse clean_resp (ht.coding rfl))) fun _ _ => ?_
  have hc : t.responseContentEncodingProcessing ≠ .none → e.cfg.responseDecompressionEnabled = true := fun h => by
    cases h' : e.cfg.responseDecompressionEnabled with
    | true => rfl
    | false => exact absurd (ht.2 h') h
  split
  · exact responsePlainBody_obeys e o
  · exact Obeys.of_keeps Keeps.fail
  · rename_i h1 _
    exact Obeys.of_keeps (responseDecompress_clean e (hc fun h => h1 h) o)

macro_rules | `(tactic| obeys_known) => `(tactic| exact responseBodyData_obeys _ _)

/-- The end of a response is not reported, or under the eyes of a decompressor. -/
theorem responseBodyData_end (e : Env) : Keeps (Clean e base) Any (responseBodyData e none) := by
  unfold responseBodyData
  refine Keeps.bind (Keeps.responseTx clean_resp) fun t ht => ?_
  refine Keeps.bind (F := Any) (Keeps.putResponse clean_resp (ht.coding rfl)) fun _ _ => ?_
  have hc : t.responseContentEncodingProcessing ≠ .none → e.cfg.responseDecompressionEnabled = true := fun h => by
    cases h' : e.cfg.responseDecompressionEnabled with
    | true => rfl
    | false => exact absurd (ht.2 h') h
  split
  · unfold responsePlainBody
    exact Keeps.bind (F := Any) (Keeps.modifyResponse clean_resp fun t ht => ht.coding rfl) fun _ _ => Keeps.pure
  · exact Keeps.fail
  · rename_i h1 _
    exact responseDecompress_clean e (hc fun h => h1 h) none

theorem responseBodyChunkedDataEnd_obeys (e : Env) : Obeys e base Any (responseBodyChunkedDataEnd e) := by
  unfold responseBodyChunkedDataEnd
  obeys_walk <;> obeys_leaf

macro_rules | `(tactic| obeys_known) => `(tactic| exact responseBodyChunkedDataEnd_obeys _)

theorem responseBodyChunkedData_obeys (e : Env) : Obeys e base Any (responseBodyChunkedData e) := by
  unfold responseBodyChunkedData
  obeys_walk <;> obeys_leaf

macro_rules | `(tactic| obeys_known) => `(tactic| exact responseBodyChunkedData_obeys _)

theorem responseChunkLine_obeys (e : Env) (line : Bytes) : Obeys e base Any (responseChunkLine e line) := by
  unfold responseChunkLine
  obeys_walk <;> obeys_leaf

macro_rules | `(tactic| obeys_known) => `(tactic| exact responseChunkLine_obeys _ _)

theorem responseChunkedLengthLoop_obeys (e : Env) (d : Bytes) : Obeys e base Any (responseChunkedLengthLoop e d) := by
  induction hd : d.length using Nat.strongRecOn generalizing d with
  | ind n ih =>
    unfold responseChunkedLengthLoop
    refine Obeys.bind (Obeys.of_keeps (Keeps.responseTx clean_resp)) fun t ht => ?_
    split
    next remaining line hl2 =>
      have := takeTillIncl_shorter hl2
      have ih := ih remaining.length (by omega) remaining rfl
      obeys_walk <;> obeys_leaf
    all_goals obeys_walk <;> obeys_leaf

macro_rules | `(tactic| obeys_known) => `(tactic| exact responseChunkedLengthLoop_obeys _ _)

theorem responseBodyChunkedLength_obeys (e : Env) : Obeys e base Any (responseBodyChunkedLength e) := by
  unfold responseBodyChunkedLength
  obeys_walk <;> obeys_leaf

macro_rules | `(tactic| obeys_known) => `(tactic| exact responseBodyChunkedLength_obeys _)

theorem responseIdentityData_obeys (e : Env) (n : Nat) : Obeys e base Any (responseIdentityData e n) := by
  unfold responseIdentityData
  obeys_walk <;> obeys_leaf

macro_rules | `(tactic| obeys_known) => `(tactic| exact responseIdentityData_obeys _ _)

theorem responseIdentityOpen_obeys (e : Env) : Obeys e base Any (responseIdentityOpen e) := by
  unfold responseIdentityOpen
  obeys_walk <;> obeys_leaf

macro_rules | `(tactic| obeys_known) => `(tactic| exact responseIdentityOpen_obeys _)

theorem responseBodyIdentityClKnown_obeys (e : Env) : Obeys e base Any (responseBodyIdentityClKnown e) := by
  unfold responseBodyIdentityClKnown
  obeys_walk <;> obeys_leaf

macro_rules | `(tactic| obeys_known) => `(tactic| exact responseBodyIdentityClKnown_obeys _)

theorem responseStreamData_obeys (e : Env) : Obeys e base Any (responseStreamData e) := by
  unfold responseStreamData
  obeys_walk <;> obeys_leaf

macro_rules | `(tactic| obeys_known) => `(tactic| exact responseStreamData_obeys _)

theorem responseBodyIdentityStreamClose_obeys (e : Env) : Obeys e base Any (responseBodyIdentityStreamClose e) := by
  unfold responseBodyIdentityStreamClose
  obeys_walk <;> obeys_leaf

macro_rules | `(tactic| obeys_known) => `(tactic| exact responseBodyIdentityStreamClose_obeys _)

/-- The choice of decoding is plain when decompression is off. -/
theorem Tx.plain_initResponse {cfg : Config} {t : Tx} (h : t.Plain cfg) : (t.initResponseDecompressors cfg).Plain cfg := by
  refine ⟨fun hc => ?_, fun hc => ?_⟩
  · have h1 : (requestSide (t.initResponseDecompressors cfg)).requestContentEncodingProcessing =
        (requestSide t).requestContentEncodingProcessing :=
      congrArg Tx.requestContentEncodingProcessing (Tx.asked_initResponseDecompressors cfg t)
    exact Eq.trans h1 (h.1 hc)
  · unfold Tx.initResponseDecompressors
    simp only [hc, Bool.false_eq_true, if_false]

theorem stateResponseHeaders_obeys (e : Env) : Obeys e base Any (stateResponseHeaders e) := by
  unfold stateResponseHeaders
  obeys_walk <;> first | obeys_leaf | exact Tx.plain_initResponse (by assumption)

macro_rules | `(tactic| obeys_known) => `(tactic| exact stateResponseHeaders_obeys _)

theorem stateResponseLine_obeys (e : Env) : Obeys e base Any (stateResponseLine e) := by
  unfold stateResponseLine
  obeys_walk <;> obeys_leaf

macro_rules | `(tactic| obeys_known) => `(tactic| exact stateResponseLine_obeys _)

theorem completeResponse_obeys (e : Env) (t : Tx) (ht : t.Plain e.cfg) : Obeys e base Any (completeResponse e t) := by
  unfold completeResponse
  refine Obeys.bind (F := Any) (Obeys.of_keeps (Keeps.putResponse clean_resp (ht.coding rfl))) fun _ _ => ?_
  refine Obeys.bind (F := Any) (Obeys.when fun _ => Obeys.of_keeps ?_) fun _ _ => ?_
  · exact Keeps.bind (F := Any) (Keeps.attempt (responseBodyData_end e)) fun _ _ => Keeps.pure
  · obeys_walk

macro_rules | `(tactic| obeys_known) => `(tactic| exact completeResponse_obeys _ _ (by assumption))

theorem requestParserCheckWaiting_obeys {e : Env} : Obeys e base Any requestParserCheckWaiting := by
  unfold requestParserCheckWaiting
  obeys_walk <;> obeys_leaf

macro_rules | `(tactic| obeys_known) => `(tactic| exact requestParserCheckWaiting_obeys)

theorem unblockRequest_obeys {e : Env} : Obeys e base Any unblockRequest := by
  unfold unblockRequest
  exact Obeys.of_keeps (Keeps.setReq fun _ h => h.mod rfl rfl (.inl rfl) (.inl rfl))

macro_rules | `(tactic| obeys_known) => `(tactic| exact unblockRequest_obeys)

theorem responseSwitch_obeys {e : Env} : Obeys e base Any responseSwitch := by
  unfold responseSwitch
  refine Obeys.of_keeps (Keeps.modify fun s h => h.mod rfl rfl ?_ (.inl rfl))
  dsimp only
  split <;> exact .inl rfl

macro_rules | `(tactic| obeys_known) => `(tactic| exact responseSwitch_obeys)

theorem responseConnect_obeys (e : Env) : Obeys e base Any (responseConnect e) := by
  unfold responseConnect
  obeys_walk <;> obeys_leaf

macro_rules | `(tactic| obeys_known) => `(tactic| exact responseConnect_obeys _)

theorem responseContinue_obeys (e : Env) : Obeys e base Any (responseContinue e) := by
  unfold responseContinue
  obeys_walk <;> obeys_leaf

macro_rules | `(tactic| obeys_known) => `(tactic| exact responseContinue_obeys _)

theorem responseExpect_obeys (e : Env) : Obeys e base Any (responseExpect e) := by
  unfold responseExpect
  obeys_walk <;> obeys_leaf

macro_rules | `(tactic| obeys_known) => `(tactic| exact responseExpect_obeys _)

theorem responseInterim_obeys (e : Env) (te : Option Header) (cl : Option Header) : Obeys e base Any (responseInterim e te cl) := by
  unfold responseInterim
  obeys_walk <;> obeys_leaf

macro_rules | `(tactic| obeys_known) => `(tactic| exact responseInterim_obeys _ _ _)

theorem responseNoBody_obeys (e : Env) (te : Option Header) (cl : Option Header) : Obeys e base Any (responseNoBody e te cl) := by
  unfold responseNoBody
  obeys_walk <;> obeys_leaf

macro_rules | `(tactic| obeys_known) => `(tactic| exact responseNoBody_obeys _ _ _)

theorem responseChunked_obeys (e : Env) (cl : Option Header) : Obeys e base Any (responseChunked e cl) := by
  unfold responseChunked
  obeys_walk <;> obeys_leaf

macro_rules | `(tactic| obeys_known) => `(tactic| exact responseChunked_obeys _ _)

theorem responseLength_obeys (e : Env) (cl : Header) : Obeys e base Any (responseLength e cl) := by
  unfold responseLength
  obeys_walk <;> obeys_leaf

macro_rules | `(tactic| obeys_known) => `(tactic| exact responseLength_obeys _ _)

theorem responseUntilClose_obeys (e : Env) (b0 : Bool) : Obeys e base Any (responseUntilClose e b0) := by
  unfold responseUntilClose
  obeys_walk <;> obeys_leaf

macro_rules | `(tactic| obeys_known) => `(tactic| exact responseUntilClose_obeys _ _)

theorem responseFraming_obeys (e : Env) (te : Option Header) (cl : Option Header) : Obeys e base Any (responseFraming e te cl) := by
  unfold responseFraming
  obeys_walk <;> obeys_leaf

macro_rules | `(tactic| obeys_known) => `(tactic| exact responseFraming_obeys _ _ _)

theorem responseBody_obeys (e : Env) (te : Option Header) (cl : Option Header) : Obeys e base Any (responseBody e te cl) := by
  unfold responseBody
  obeys_walk <;> obeys_leaf

macro_rules | `(tactic| obeys_known) => `(tactic| exact responseBody_obeys _ _ _)

theorem responseDetermineRest_obeys (e : Env) : Obeys e base Any (responseDetermineRest e) := by
  unfold responseDetermineRest
  obeys_walk <;> obeys_leaf

macro_rules | `(tactic| obeys_known) => `(tactic| exact responseDetermineRest_obeys _)

theorem responseBodyDetermine_obeys (e : Env) : Obeys e base Any (responseBodyDetermine e) := by
  unfold responseBodyDetermine
  obeys_walk <;> obeys_leaf

macro_rules | `(tactic| obeys_known) => `(tactic| exact responseBodyDetermine_obeys _)

theorem responseLineAsBody_obeys (e : Env) (line : Bytes) : Obeys e base Any (responseLineAsBody e line) := by
  unfold responseLineAsBody
  refine Obeys.bind (F := Any) (Obeys.of_keeps (Keeps.modifyResponse clean_resp fun t ht => ⟨ht.1, fun _ => rfl⟩)) fun _ _ => ?_
  obeys_walk <;> obeys_leaf

macro_rules | `(tactic| obeys_known) => `(tactic| exact responseLineAsBody_obeys _ _)

theorem responseLineRead_obeys (e : Env) (line : Bytes) : Obeys e base Any (responseLineRead e line) := by
  unfold responseLineRead
  obeys_walk <;> obeys_leaf

macro_rules | `(tactic| obeys_known) => `(tactic| exact responseLineRead_obeys _ _)

theorem responseLineComplete_obeys (e : Env) (line : Bytes) : Obeys e base Any (responseLineComplete e line) := by
  unfold responseLineComplete
  obeys_walk <;> obeys_leaf

macro_rules | `(tactic| obeys_known) => `(tactic| exact responseLineComplete_obeys _ _)

theorem responseLine_obeys (e : Env) : Obeys e base Any (responseLine e) := by
  unfold responseLine
  obeys_walk <;> obeys_leaf

macro_rules | `(tactic| obeys_known) => `(tactic| exact responseLine_obeys _)

theorem responseTrailer_obeys (e : Env) : Obeys e base Any (responseTrailer e) := by
  unfold responseTrailer
  obeys_walk <;> obeys_leaf

macro_rules | `(tactic| obeys_known) => `(tactic| exact responseTrailer_obeys _)

theorem responseHeadersClosed_obeys (e : Env) : Obeys e base Any (responseHeadersClosed e) := by
  unfold responseHeadersClosed
  obeys_walk <;> obeys_leaf

macro_rules | `(tactic| obeys_known) => `(tactic| exact responseHeadersClosed_obeys _)

theorem responseHeadersDone_obeys (e : Env) : Obeys e base Any (responseHeadersDone e) := by
  unfold responseHeadersDone
  obeys_walk <;> obeys_leaf

macro_rules | `(tactic| obeys_known) => `(tactic| exact responseHeadersDone_obeys _)

theorem responseHeaders_obeys (e : Env) : Obeys e base Any (responseHeaders e) := by
  unfold responseHeaders
  obeys_walk <;> obeys_leaf

macro_rules | `(tactic| obeys_known) => `(tactic| exact responseHeaders_obeys _)

theorem stateResponseStart_obeys (e : Env) : Obeys e base Any (stateResponseStart e) := by
  unfold stateResponseStart
  obeys_walk <;> first
    | obeys_leaf
    | (rename_i t ht _ _ _; exact ⟨ht.1, fun _ => rfl⟩)

macro_rules | `(tactic| obeys_known) => `(tactic| exact stateResponseStart_obeys _)

end

end Model

/-
The request machine obeys refusals.
-/
import Verif.Lemmas.Obeys
import Verif.Lemmas.Apart

namespace Model

open M Spec

section
variable {base : Nat}

theorem requestConsume_obeys {e : Env} (n : Nat) : Obeys e base Any (requestConsume n) := by
  unfold requestConsume
  obeys_walk <;> obeys_leaf

macro_rules | `(tactic| obeys_known) => `(tactic| exact requestConsume_obeys _)

theorem requestUnconsume_obeys {e : Env} (n : Nat) : Obeys e base Any (requestUnconsume n) := by
  unfold requestUnconsume
  obeys_walk <;> obeys_leaf

macro_rules | `(tactic| obeys_known) => `(tactic| exact requestUnconsume_obeys _)

/-- Raw headers are not obeyed: the state stays clean. -/
theorem requestReceiverSendData_clean (e : Env) : Keeps (Clean e base) Any (requestReceiverSendData e) := by
  unfold requestReceiverSendData
  refine Keeps.bind_state fun s hs => ?_
  refine Keeps.bind (F := Any) (Keeps.modify fun s h => h.mod rfl rfl (.inl rfl) (.inl rfl)) fun _ _ => ?_
  refine Keeps.bind (Keeps.requestTx clean_req) fun t ht => ?_
  have hr := hs.plain.req
  split
  · rename_i k hk
    rw [hk] at hr
    refine Keeps.emit fun s h => h.event ?_
    intro ho
    cases k <;> first | exact ho.elim | exact hr.elim
  · exact Keeps.pure

theorem requestReceiverFinalizeClear_obeys (e : Env) : Obeys e base Any (requestReceiverFinalizeClear e) := by
  unfold requestReceiverFinalizeClear
  refine Obeys.bind_state fun s hs => ?_
  split
  · exact Obeys.of_keeps Keeps.pure
  · refine Obeys.of_keeps ?_
    refine Keeps.bind (F := Any) (Keeps.attempt (requestReceiverSendData_clean e)) fun _ _ => ?_
    exact Keeps.bind (F := Any) (Keeps.setReq fun s h => h.mod rfl rfl (.inr trivial) (.inl rfl)) fun _ _ => Keeps.ofExcept

macro_rules | `(tactic| obeys_known) => `(tactic| exact requestReceiverFinalizeClear_obeys _)

theorem requestSetReceiver_obeys (e : Env) : Obeys e base Any (requestSetReceiver e) := by
  unfold requestSetReceiver
  obeys_walk <;> obeys_leaf

macro_rules | `(tactic| obeys_known) => `(tactic| exact requestSetReceiver_obeys _)

theorem requestHandleStateChange_obeys (e : Env) : Obeys e base Any (requestHandleStateChange e) := by
  unfold requestHandleStateChange
  obeys_walk <;> obeys_leaf

macro_rules | `(tactic| obeys_known) => `(tactic| exact requestHandleStateChange_obeys _)

theorem handleRequestAbsentLf_obeys (e : Env) : Obeys e base Any (handleRequestAbsentLf e) := by
  unfold handleRequestAbsentLf
  obeys_walk <;> obeys_leaf

macro_rules | `(tactic| obeys_known) => `(tactic| exact handleRequestAbsentLf_obeys _)

theorem requestRunHookBodyData_obeys (e : Env) (d : PData) : Obeys e base Any (requestRunHookBodyData e d) := by
  unfold requestRunHookBodyData
  obeys_walk <;> obeys_leaf

macro_rules | `(tactic| obeys_known) => `(tactic| exact requestRunHookBodyData_obeys _ _)

/-- The callbacks for the bodies of requests are not obeyed when these are decompressed. -/
theorem requestRunHookBodyData_clean (e : Env) (hc : e.cfg.requestDecompressionEnabled = true) (d : PData) :
    Keeps (Clean e base) Any (requestRunHookBodyData e d) := by
  unfold requestRunHookBodyData
  refine Keeps.bind (Keeps.requestTx clean_req) fun t ht => ?_
  refine Keeps.ite (fun _ => Keeps.pure) fun _ => ?_
  refine Keeps.bind_state fun s hs => ?_
  refine Keeps.bind (F := Any) ?_ fun _ _ => ?_
  all_goals
    refine Keeps.emit fun s h => h.event fun ho => ?_
    have ho : e.cfg.requestDecompressionEnabled = false := ho
    rw [hc] at ho
    cases ho

theorem requestDecompressorCallback_clean (e : Env) (hc : e.cfg.requestDecompressionEnabled = true) (o : Option Bytes) :
    Keeps (Clean e base) Any (requestDecompressorCallback e o) := by
  unfold requestDecompressorCallback
  refine Keeps.bind (Keeps.requestTx clean_req) fun t ht => ?_
  refine Keeps.bind (F := Any) (Keeps.putRequest clean_req (ht.coding rfl)) fun _ _ => ?_
  refine Keeps.bind (requestRunHookBodyData_clean e hc _) fun _ _ => ?_
  refine Keeps.bind (Keeps.requestTx clean_req) fun t ht => ?_
  exact Keeps.ite (fun _ => Keeps.pure) fun _ => Keeps.fail

theorem requestDecompress_clean (e : Env) (hc : e.cfg.requestDecompressionEnabled = true) (o : Option Bytes) :
    Keeps (Clean e base) Any (requestDecompress e o) := by
  unfold requestDecompress
  refine Keeps.bind (Keeps.requestTx clean_req) fun t ht => ?_
  split
  · exact Keeps.pure
  · exact Keeps.fail
  · refine Keeps.bind (F := Any) (Keeps.putRequest clean_req (ht.coding rfl)) fun _ _ => ?_
    refine Keeps.bind_state fun s hs => ?_
    exact Keeps.bind (Keeps.runDecoding (fun o => requestDecompressorCallback_clean e hc o) _) fun _ _ => Keeps.pure
  · refine Keeps.bind (F := Any) (Keeps.putRequest clean_req (ht.coding rfl)) fun _ _ => ?_
    refine Keeps.bind_state fun s hs => ?_
    refine Keeps.bind (Keeps.runDecoding (fun o => requestDecompressorCallback_clean e hc o) _) fun _ _ => ?_
    exact Keeps.ite (fun _ => Keeps.modifyRequest clean_req fun t ht => ht.coding rfl) fun _ => Keeps.fail

theorem requestPlainBody_obeys (e : Env) (o : Option Bytes) : Obeys e base Any (requestPlainBody e o) := by
  unfold requestPlainBody
  obeys_walk <;> obeys_leaf

macro_rules | `(tactic| obeys_known) => `(tactic| exact requestPlainBody_obeys _ _)

theorem requestBodyData_obeys (e : Env) (o : Option Bytes) : Obeys e base Any (requestBodyData e o) := by
  unfold requestBodyData
  refine Obeys.bind (Obeys.of_keeps (Keeps.requestTx clean_req)) fun t ht => ?_
  refine Obeys.bind (F := Any) (Obeys.of_keeps (Keeps.putRequest clean_req (ht.coding rfl))) fun _ _ => ?_
  have hc : t.requestContentEncodingProcessing ≠ .none → e.cfg.requestDecompressionEnabled = true := fun h => by
    cases h' : e.cfg.requestDecompressionEnabled with
    | true => rfl
    | false => exact absurd (ht.1 h') h
  split
  · exact requestPlainBody_obeys e o
  · exact Obeys.of_keeps Keeps.fail
  · rename_i h1 _
    exact Obeys.of_keeps (requestDecompress_clean e (hc fun h => h1 h) o)

macro_rules | `(tactic| obeys_known) => `(tactic| exact requestBodyData_obeys _ _)

theorem stateRequestTrailer_obeys (e : Env) : Obeys e base Any (stateRequestTrailer e) := by
  unfold stateRequestTrailer
  obeys_walk <;> obeys_leaf

macro_rules | `(tactic| obeys_known) => `(tactic| exact stateRequestTrailer_obeys _)

/-- The choice of decoding is plain when decompression is off. -/
theorem Tx.plain_initRequest {cfg : Config} {t : Tx} (h : t.Plain cfg) : (t.initRequestDecompressors cfg).Plain cfg := by
  refine ⟨fun hc => ?_, fun hc => ?_⟩
  · unfold Tx.initRequestDecompressors
    simp only [hc, Bool.false_eq_true, if_false]
  · have h1 : (responseSide (t.initRequestDecompressors cfg)).responseContentEncodingProcessing =
        (responseSide t).responseContentEncodingProcessing := by
      have := congrArg Prod.snd (Tx.answer_initRequestDecompressors cfg t)
      exact congrArg Tx.responseContentEncodingProcessing this
    exact Eq.trans h1 (h.2 hc)

theorem stateRequestHeadersDone_obeys (e : Env) : Obeys e base Any (stateRequestHeadersDone e) := by
  unfold stateRequestHeadersDone
  obeys_walk <;> first | obeys_leaf | exact Tx.plain_initRequest (by assumption)

macro_rules | `(tactic| obeys_known) => `(tactic| exact stateRequestHeadersDone_obeys _)

theorem stateRequestHeaders_obeys (e : Env) : Obeys e base Any (stateRequestHeaders e) := by
  unfold stateRequestHeaders
  obeys_walk <;> obeys_leaf

macro_rules | `(tactic| obeys_known) => `(tactic| exact stateRequestHeaders_obeys _)

theorem stateRequestLine_obeys (e : Env) : Obeys e base Any (stateRequestLine e) := by
  unfold stateRequestLine
  obeys_walk <;> obeys_leaf

macro_rules | `(tactic| obeys_known) => `(tactic| exact stateRequestLine_obeys _)

theorem finalizeTx_obeys (e : Env) (i : Nat) : Obeys e base Any (finalizeTx e i) := by
  unfold finalizeTx
  obeys_walk <;> obeys_leaf

macro_rules | `(tactic| obeys_known) => `(tactic| exact finalizeTx_obeys _ _)

theorem completeRequest_obeys (e : Env) (t : Tx) : Obeys e base Any (completeRequest e t) := by
  unfold completeRequest
  obeys_walk <;> obeys_leaf

macro_rules | `(tactic| obeys_known) => `(tactic| exact completeRequest_obeys _ _)

theorem requestConnectCheck_obeys (e : Env) : Obeys e base Any (requestConnectCheck e) := by
  unfold requestConnectCheck
  obeys_walk <;> obeys_leaf

macro_rules | `(tactic| obeys_known) => `(tactic| exact requestConnectCheck_obeys _)

theorem requestConnectWaitResponse_obeys (e : Env) : Obeys e base Any (requestConnectWaitResponse e) := by
  unfold requestConnectWaitResponse
  obeys_walk <;> obeys_leaf

macro_rules | `(tactic| obeys_known) => `(tactic| exact requestConnectWaitResponse_obeys _)

theorem requestBodyChunkedDataEnd_obeys (e : Env) : Obeys e base Any (requestBodyChunkedDataEnd e) := by
  unfold requestBodyChunkedDataEnd
  obeys_walk <;> obeys_leaf

macro_rules | `(tactic| obeys_known) => `(tactic| exact requestBodyChunkedDataEnd_obeys _)

theorem requestBodyChunkedData_obeys (e : Env) : Obeys e base Any (requestBodyChunkedData e) := by
  unfold requestBodyChunkedData
  obeys_walk <;> obeys_leaf

macro_rules | `(tactic| obeys_known) => `(tactic| exact requestBodyChunkedData_obeys _)

theorem requestChunkLine_obeys (e : Env) (l : Bytes) : Obeys e base Any (requestChunkLine e l) := by
  unfold requestChunkLine
  obeys_walk <;> obeys_leaf

macro_rules | `(tactic| obeys_known) => `(tactic| exact requestChunkLine_obeys _ _)

theorem requestChunkedLengthLoop_obeys (e : Env) (d : Bytes) : Obeys e base Any (requestChunkedLengthLoop e d) := by
  induction hl : d.length using Nat.strongRecOn generalizing d with
  | ind n ih =>
    unfold requestChunkedLengthLoop
    split
    next remaining line hl2 =>
      have := takeTillIncl_shorter hl2
      have ih := ih remaining.length (by omega) remaining rfl
      obeys_walk <;> obeys_leaf
    all_goals
      obeys_walk <;> obeys_leaf

macro_rules | `(tactic| obeys_known) => `(tactic| exact requestChunkedLengthLoop_obeys _ _)

theorem requestBodyChunkedLength_obeys (e : Env) : Obeys e base Any (requestBodyChunkedLength e) := by
  unfold requestBodyChunkedLength
  obeys_walk <;> obeys_leaf

macro_rules | `(tactic| obeys_known) => `(tactic| exact requestBodyChunkedLength_obeys _)

theorem requestIdentityData_obeys (e : Env) (n : Nat) : Obeys e base Any (requestIdentityData e n) := by
  unfold requestIdentityData
  obeys_walk <;> obeys_leaf

macro_rules | `(tactic| obeys_known) => `(tactic| exact requestIdentityData_obeys _ _)

theorem requestBodyIdentity_obeys (e : Env) : Obeys e base Any (requestBodyIdentity e) := by
  unfold requestBodyIdentity
  obeys_walk <;> obeys_leaf

macro_rules | `(tactic| obeys_known) => `(tactic| exact requestBodyIdentity_obeys _)

theorem requestBodyDetermine_obeys (e : Env) : Obeys e base Any (requestBodyDetermine e) := by
  unfold requestBodyDetermine
  obeys_walk <;> obeys_leaf

macro_rules | `(tactic| obeys_known) => `(tactic| exact requestBodyDetermine_obeys _)

theorem requestHeadersClosed_obeys (e : Env) : Obeys e base Any (requestHeadersClosed e) := by
  unfold requestHeadersClosed
  obeys_walk <;> obeys_leaf

macro_rules | `(tactic| obeys_known) => `(tactic| exact requestHeadersClosed_obeys _)

theorem requestHeaders_obeys (e : Env) : Obeys e base Any (requestHeaders e) := by
  unfold requestHeaders
  obeys_walk <;> obeys_leaf

macro_rules | `(tactic| obeys_known) => `(tactic| exact requestHeaders_obeys _)

theorem requestProtocol_obeys (e : Env) : Obeys e base Any (requestProtocol e) := by
  unfold requestProtocol
  obeys_walk <;> obeys_leaf

macro_rules | `(tactic| obeys_known) => `(tactic| exact requestProtocol_obeys _)

theorem requestLineComplete_obeys (e : Env) (l : Bytes) : Obeys e base Any (requestLineComplete e l) := by
  unfold requestLineComplete
  obeys_walk <;> obeys_leaf

macro_rules | `(tactic| obeys_known) => `(tactic| exact requestLineComplete_obeys _ _)

theorem requestLine_obeys (e : Env) : Obeys e base Any (requestLine e) := by
  unfold requestLine
  obeys_walk <;> obeys_leaf

macro_rules | `(tactic| obeys_known) => `(tactic| exact requestLine_obeys _)

theorem requestIgnoreDataAfterHttp09_obeys {e : Env} : Obeys e base Any (requestIgnoreDataAfterHttp09) := by
  unfold requestIgnoreDataAfterHttp09
  obeys_walk <;> obeys_leaf

macro_rules | `(tactic| obeys_known) => `(tactic| exact requestIgnoreDataAfterHttp09_obeys)

theorem requestReset_obeys {e : Env} : Obeys e base Any (requestReset) := by
  unfold requestReset
  obeys_walk <;> obeys_leaf

macro_rules | `(tactic| obeys_known) => `(tactic| exact requestReset_obeys)

theorem stateRequestStart_clean (e : Env) : Keeps (Clean e base) Any (stateRequestStart e) := by
  unfold stateRequestStart
  refine Keeps.bind (F := Any) (Keeps.setReq fun s h => h.mod rfl rfl (.inl rfl) (.inl rfl)) fun _ _ => ?_
  refine Keeps.bind (Keeps.requestTx clean_req) fun t ht => ?_
  refine Keeps.bind (F := Any) (Keeps.putRequest clean_req (ht.coding rfl)) fun _ _ => ?_
  refine Keeps.bind_state fun s hs => Keeps.runTxHook fun s h => h.event fun ho => ?_
  exact absurd rfl ho

theorem requestIdle_obeys (e : Env) : Obeys e base Any (requestIdle e) := by
  unfold requestIdle
  refine Obeys.bind_state fun s hs => ?_
  refine Obeys.ite (fun _ => Obeys.of_keeps Keeps.fail) fun _ => ?_
  refine Obeys.bind (F := Any) (requestReset_obeys) fun _ _ => ?_
  exact Obeys.of_keeps (Keeps.bind (F := Any) (Keeps.attempt (stateRequestStart_clean e)) fun _ _ => Keeps.pure)

macro_rules | `(tactic| obeys_known) => `(tactic| exact requestIdle_obeys _)

end

end Model

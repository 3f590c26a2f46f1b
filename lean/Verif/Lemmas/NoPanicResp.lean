/-
The response state machine does not panic.
-/
import Verif.Lemmas.NoPanicReq

namespace Model

open M

section
variable {P : Conn → Prop}

theorem responseReceiverSendData_calm (e : Env) (hP : Lasting P) : Calm P P (responseReceiverSendData e) := by
  unfold responseReceiverSendData
  refine Calm.bind_read fun _ => Calm.bind (Calm.modify hP fun _ => rfl) (fun _ => ?_) fun _ h => h
  refine Calm.bind (Calm.responseTx hP) (fun _ => ?_) fun _ h => h
  calm_walk

macro_rules | `(tactic| calm_known) => `(tactic| exact responseReceiverSendData_calm _ (by lasting))

theorem responseReceiverFinalizeClear_calm (e : Env) (hP : Lasting P) :
    Calm P P (responseReceiverFinalizeClear e) := by
  unfold responseReceiverFinalizeClear
  refine Calm.bind_read fun _ => ?_
  split
  · calm_walk
  · refine Calm.bind (Calm.attempt (responseReceiverSendData_calm e hP)) (fun _ => ?_) fun _ h => h
    exact Calm.bind (Calm.setResp hP) (fun _ => Calm.ofStatus fun _ h => h) fun _ h => h

macro_rules | `(tactic| calm_known) => `(tactic| exact responseReceiverFinalizeClear_calm _ (by lasting))

theorem handleResponseAbsentLf_calm (e : Env) (hP : Lasting P) : Calm P P (handleResponseAbsentLf e) := by
  unfold handleResponseAbsentLf
  refine Calm.bind_read fun _ => Calm.bind Calm.checkResponseBufferLimit (fun _ => ?_) fun _ h => h
  refine Calm.bind (Calm.setResp hP) (fun _ => Calm.bind (Calm.responseConsume hP) (fun _ => ?_) fun _ h => h)
    fun _ h => h
  calm_walk

macro_rules | `(tactic| calm_known) => `(tactic| exact handleResponseAbsentLf_calm _ (by lasting))

end

theorem responseSetReceiver_calm (e : Env) : Calm Top Top (responseSetReceiver e) := by
  unfold responseSetReceiver
  calm_walk

theorem responseRunHookBodyData_calm (e : Env) (d : PData) : Calm HasResp HasResp (responseRunHookBodyData e d) := by
  unfold responseRunHookBodyData
  calm_walk

macro_rules | `(tactic| calm_known) => `(tactic| exact responseRunHookBodyData_calm _ _)

theorem responseDecompressorCallback_calm (e : Env) (o : Option Bytes) :
    Calm HasResp HasResp (responseDecompressorCallback e o) := by
  unfold responseDecompressorCallback
  calm_walk

macro_rules | `(tactic| calm_known) => `(tactic| exact responseDecompressorCallback_calm _ _)

theorem responseDecompress_calm (e : Env) (o : Option Bytes) : Calm HasResp HasResp (responseDecompress e o) := by
  unfold responseDecompress
  calm_walk

macro_rules | `(tactic| calm_known) => `(tactic| exact responseDecompress_calm _ _)

theorem responseNext_calm (e : Env) (P : Conn → Prop) : Calm P Top (responseNext e) :=
  fun _ _ => ⟨by simp [responseNext, M.modify], trivial⟩

macro_rules | `(tactic| calm_known) => `(tactic| exact responseNext_calm _ _)

theorem responsePlainBody_calm (e : Env) (o : Option Bytes) : Calm HasResp HasResp (responsePlainBody e o) := by
  unfold responsePlainBody
  calm_walk

macro_rules | `(tactic| calm_known) => `(tactic| exact responsePlainBody_calm _ _)

theorem responseBodyData_calm (e : Env) (o : Option Bytes) : Calm HasResp HasResp (responseBodyData e o) := by
  unfold responseBodyData
  refine Calm.bind Calm.hasResp (fun t => ?_) fun _ h => h
  refine Calm.bind (Calm.putResponse .hasResp) (fun _ => ?_) fun _ h => h
  calm_walk

theorem responseBodyData_any (e : Env) (o : Option Bytes) (P : Conn → Prop) : Calm P Top (responseBodyData e o) := by
  unfold responseBodyData
  refine Calm.bind_responseTx fun t => ?_
  refine Calm.bind (Calm.putResponse .hasResp) (fun _ => ?_) fun _ _ => trivial
  calm_walk

macro_rules | `(tactic| calm_known) => `(tactic| exact responseBodyData_calm _ _)
macro_rules | `(tactic| calm_known) => `(tactic| exact responseBodyData_any _ _ _)

theorem completeResponse_calm (e : Env) (t : Tx) : Calm HasResp HasResp (completeResponse e t) := by
  unfold completeResponse
  calm_walk

macro_rules | `(tactic| calm_known) => `(tactic| exact completeResponse_calm _ _)

theorem requestParserCheckWaiting_calm {P : Conn → Prop} (hP : Lasting P) : Calm P P requestParserCheckWaiting := by
  unfold requestParserCheckWaiting
  refine Calm.bind_read fun _ => ?_
  refine Calm.ite (fun _ => Calm.fail fun _ h => h) fun _ => Calm.ite (fun _ => ?_) fun _ => Calm.pure fun _ h => h
  exact Calm.bind (Calm.modify hP fun _ => rfl) (fun _ => Calm.fail fun _ h => h) fun _ h => h

macro_rules | `(tactic| calm_known) => `(tactic| exact requestParserCheckWaiting_calm (by lasting))

theorem stateResponseComplete_calm (e : Env) (P : Conn → Prop) : Calm P Top (stateResponseComplete e) := by
  unfold stateResponseComplete
  refine Calm.bind_responseTx fun t => ?_
  refine Calm.bind (Q := HasResp) (Calm.when (fun _ h => h) fun _ => completeResponse_calm e t) (fun _ => ?_)
    fun _ _ => trivial
  refine Calm.bind (Q := HasResp) (requestParserCheckWaiting_calm .hasResp) (fun _ => ?_) fun _ _ => trivial
  refine Calm.bind_read fun s => ?_
  refine Calm.bind (Q := HasResp) (finalizeTx_calm e _ .hasResp) (fun _ => ?_) fun _ _ => trivial
  exact Calm.bind (Q := Top) (responseNext_calm e _) (fun _ => Calm.setResp .top) fun _ _ => trivial

macro_rules | `(tactic| calm_known) => `(tactic| exact stateResponseComplete_calm _ _)

theorem stateResponseStart_calm (e : Env) (P : Conn → Prop) : Calm P Top (stateResponseStart e) := by
  unfold stateResponseStart
  calm_walk

macro_rules | `(tactic| calm_known) => `(tactic| exact stateResponseStart_calm _ _)

theorem stateResponseHeaders_calm (e : Env) : Calm HasResp HasResp (stateResponseHeaders e) := by
  unfold stateResponseHeaders
  calm_walk

macro_rules | `(tactic| calm_known) => `(tactic| exact stateResponseHeaders_calm _)

theorem stateResponseLine_calm (e : Env) : Calm HasResp HasResp (stateResponseLine e) := by
  unfold stateResponseLine
  calm_walk

macro_rules | `(tactic| calm_known) => `(tactic| exact stateResponseLine_calm _)

theorem responseBodyChunkedDataEnd_calm (e : Env) : Calm Top Top (responseBodyChunkedDataEnd e) := by
  unfold responseBodyChunkedDataEnd
  calm_walk

theorem inputPrefix_calm' {n : Nat} {P : Conn → Prop} (h : ∀ s, P s → n ≤ s.input.asSlice.length) :
    Calm P P (inputPrefix n) := by
  intro s hs
  unfold inputPrefix
  rw [if_pos (h s hs)]
  exact ⟨by simp, hs⟩

theorem len_of_no_gap' {d : PData} (h : d.isGap = false) : d.len = d.asSlice.length := by
  unfold PData.isGap at h
  unfold PData.len
  cases hg : d.gapLen with
  | none => rfl
  | some g => rw [hg] at h; cases h

theorem responseBodyChunkedData_calm (e : Env) :
    Calm (fun s => s.input.isGap = false) Top (responseBodyChunkedData e) := by
  unfold responseBodyChunkedData
  refine Calm.bind_state fun s => ?_
  refine Calm.ite (fun _ => Calm.fail fun _ _ => trivial) fun _ => ?_
  refine Calm.bind (Q := Top) (Calm.top (inputPrefix_calm' ?_)) (fun _ => ?_) fun _ h => h
  · rintro s' ⟨h1, rfl⟩
    rw [← len_of_no_gap' h1]
    exact Nat.min_le_left _ _
  · calm_walk

theorem responseChunkLine_calm (e : Env) (l : Bytes) : Calm HasResp HasResp (responseChunkLine e l) := by
  unfold responseChunkLine
  calm_walk

macro_rules | `(tactic| calm_known) => `(tactic| exact responseChunkLine_calm _ _)

theorem responseChunkedLengthLoop_calm (e : Env) (data : Bytes) :
    Calm Top Top (responseChunkedLengthLoop e data) := by
  induction h : data.length using Nat.strongRecOn generalizing data with
  | ind n ih =>
    subst h
    unfold responseChunkedLengthLoop
    refine Calm.bind_responseTx fun t => ?_
    split
    next remaining line hl =>
      have := ih remaining.length (takeTillIncl_shorter hl) remaining rfl
      calm_walk
    next => calm_walk

theorem responseBodyChunkedLength_calm (e : Env) : Calm Top Top (responseBodyChunkedLength e) := by
  unfold responseBodyChunkedLength
  exact Calm.bind_read fun s => responseChunkedLengthLoop_calm e _

theorem responseIdentityData_calm (e : Env) (n : Nat) :
    Calm (fun s => n ≤ s.input.len) Top (responseIdentityData e n) := by
  unfold responseIdentityData
  refine Calm.bind_state fun s => ?_
  refine Calm.ite (fun _ => ?_) fun hg => ?_
  · calm_walk
  · refine Calm.bind (Q := Top) (Calm.top (inputPrefix_calm' ?_)) (fun _ => ?_) fun _ h => h
    · rintro s' ⟨h1, rfl⟩
      rw [← len_of_no_gap' (by simpa using hg)]
      exact h1
    · calm_walk

theorem responseIdentityOpen_calm (e : Env) : Calm Top Top (responseIdentityOpen e) := by
  unfold responseIdentityOpen
  refine Calm.bind_state fun s => ?_
  split
  · exact Calm.fail fun _ _ => trivial
  next left _ =>
    dsimp only
    refine Calm.ite (fun _ => Calm.fail fun _ _ => trivial) fun _ => ?_
    refine Calm.bind (Q := Top) ((responseIdentityData_calm e _).pre ?_) (fun _ => ?_) fun _ h => h
    · rintro s' ⟨_, rfl⟩
      exact Nat.min_le_left _ _
    · calm_walk

macro_rules | `(tactic| calm_known) => `(tactic| exact responseIdentityOpen_calm _)

theorem responseBodyIdentityClKnown_calm (e : Env) : Calm Top Top (responseBodyIdentityClKnown e) := by
  unfold responseBodyIdentityClKnown
  calm_walk

theorem responseStreamData_calm (e : Env) : Calm Top Top (responseStreamData e) := by
  unfold responseStreamData
  calm_walk

macro_rules | `(tactic| calm_known) => `(tactic| exact responseStreamData_calm _)

theorem responseBodyIdentityStreamClose_calm (e : Env) : Calm Top Top (responseBodyIdentityStreamClose e) := by
  unfold responseBodyIdentityStreamClose
  calm_walk

/-! ### The end of the headers -/

theorem responseConnect_calm (e : Env) : Calm HasResp HasResp (responseConnect e) := by
  unfold responseConnect unblockRequest
  calm_walk

theorem responseExpect_calm (e : Env) : Calm HasResp HasResp (responseExpect e) := by
  unfold responseExpect
  calm_walk

macro_rules | `(tactic| calm_known) => `(tactic| exact responseExpect_calm _)

theorem responseContinue_calm (e : Env) : Calm HasResp HasResp (responseContinue e) := by
  unfold responseContinue
  calm_walk

macro_rules | `(tactic| calm_known) => `(tactic| exact responseContinue_calm _)

theorem responseInterim_calm (e : Env) (te cl : Option Header) : Calm HasResp HasResp (responseInterim e te cl) := by
  unfold responseInterim responseSwitch
  calm_walk

macro_rules | `(tactic| calm_known) => `(tactic| exact responseInterim_calm _ _ _)

theorem responseNoBody_calm (e : Env) (te cl : Option Header) : Calm HasResp HasResp (responseNoBody e te cl) := by
  unfold responseNoBody
  calm_walk

macro_rules | `(tactic| calm_known) => `(tactic| exact responseNoBody_calm _ _ _)

theorem responseFraming_calm (e : Env) (te cl : Option Header) : Calm HasResp HasResp (responseFraming e te cl) := by
  unfold responseFraming responseChunked responseLength responseUntilClose
  calm_walk

macro_rules | `(tactic| calm_known) => `(tactic| exact responseFraming_calm _ _ _)

theorem responseBody_calm (e : Env) (te cl : Option Header) : Calm HasResp HasResp (responseBody e te cl) := by
  unfold responseBody
  calm_walk

macro_rules | `(tactic| calm_known) => `(tactic| exact responseBody_calm _ _ _)

theorem responseDetermineRest_calm (e : Env) : Calm HasResp HasResp (responseDetermineRest e) := by
  unfold responseDetermineRest
  calm_walk

macro_rules | `(tactic| calm_known) => `(tactic| exact responseDetermineRest_calm _)

/-- Once a function has looked up the transaction with success, it is there. -/
theorem hasResp_of_ok {α : Type} {e : Env} {x : Status} {f : Tx → M α} (hf : ∀ t, Calm HasResp HasResp (f t)) (s : Conn) :
    ((Model.responseTx e (.status x) >>= f) s).1 ≠ .error .panic ∧
      ∀ b, ((Model.responseTx e (.status x) >>= f) s).1 = .ok b → HasResp ((Model.responseTx e (.status x) >>= f) s).2 := by
  refine post.bind (Q := fun r s' => r ≠ .error .panic ∧ ∀ b, r = .ok b → HasResp s') ?_
  unfold post Model.responseTx Txs.responseMut Txs.entry
  cases hg : s.txs.get s.txs.response with
  | some t =>
    have h := hf t s (by unfold HasResp; rw [hg]; rfl)
    exact ⟨h.1, fun _ _ => h.2⟩
  | none =>
    dsimp only
    by_cases hl : s.txs.map.length ≥ e.cfg.maxTx
    · rw [if_pos hl]; exact ⟨by simp, fun a h => by cases h⟩
    · rw [if_neg hl]
      have h := hf { index := s.txs.response } { s with txs := s.txs.set s.txs.response { index := s.txs.response } } (by
        show ((s.txs.set s.txs.response _).get s.txs.response).isSome = true
        rw [Txs.get_set, if_pos rfl]; rfl)
      exact ⟨h.1, fun _ _ => h.2⟩

theorem responseBodyDetermine_calm (e : Env) : Calm Top Top (responseBodyDetermine e) := by
  unfold responseBodyDetermine
  refine Calm.bind_ok (Q := HasResp) (fun s _ => ?_) fun b => ?_
  · unfold responseConnect unblockRequest
    refine hasResp_of_ok (fun t => ?_) s
    calm_walk
  · calm_walk

/-! ### The response line -/

theorem responseTx_input (e : Env) (x : Err) (s : Conn) : (Model.responseTx e x s).2.input = s.input := by
  unfold Model.responseTx
  split <;> rfl

theorem modifyResponse_input (e : Env) (f : Tx → Tx) (s : Conn) : (modifyResponse e f s).2.input = s.input := by
  have h : post (modifyResponse e f) s (fun _ s' => s'.input = s.input) := by
    unfold modifyResponse
    refine post.bind ?_
    have h := responseTx_input e .panic s
    unfold post
    cases hr : Model.responseTx e .panic s with
    | mk r s' =>
      rw [hr] at h
      cases r with
      | ok t => exact h
      | error x => exact h
  exact h

theorem M.bind_pure_right {α : Type} (m : M α) : (m >>= pure) = m := by
  funext s
  show (match m s with | (.ok a, s) => (pure a : M α) s | (.error e, s) => (.error e, s)) = _
  cases h : m s with
  | mk r s' => cases r <;> rfl

theorem PData.consume_isGap (d : PData) (n : Nat) : (d.consume n).isGap = d.isGap := rfl

theorem httpAhead_some {d : PData} (h : d.isGap = false) : httpAhead d ≠ none := by
  unfold httpAhead
  split
  · rename_i hl
    rw [len_of_no_gap' h] at hl
    dsimp only
    rw [if_neg]
    · simp
    · simp only [List.length_take]
      omega
  · simp

theorem responseLineAsBody_calm (e : Env) (l : Bytes) : Calm HasResp HasResp (responseLineAsBody e l) := by
  unfold responseLineAsBody
  calm_walk

macro_rules | `(tactic| calm_known) => `(tactic| exact responseLineAsBody_calm _ _)

/-- The response transaction exists and the input is data. -/
def RespData (s : Conn) : Prop := HasResp s ∧ s.input.isGap = false

theorem responseLineRead_calm (e : Env) (l : Bytes) : Calm RespData Top (responseLineRead e l) := by
  unfold responseLineRead
  refine Calm.bind_ok (Q := RespData) (fun s h => ?_) fun _ => ?_
  · have h1 := Calm.modifyResponse (e := e) (f := fun t => { t with
      responseLine := none, responseProtocol := none, responseStatus := none, responseMessage := none }) s h.1
    refine ⟨h1.1, fun _ _ => ⟨h1.2, ?_⟩⟩
    rw [modifyResponse_input]
    exact h.2
  · refine Calm.bind_state fun s => ?_
    refine Calm.ite (fun _ => ?_) fun _ => ?_
    · split
      next hn => exact fun s' hs => absurd hn (httpAhead_some (by rw [← hs.2]; exact hs.1.2))
      · exact (Calm.top Calm.modifyResponse).pre fun s' h => h.1.1
      · exact (Calm.top (responseLineAsBody_calm e l)).pre fun s' h => h.1.1
    · refine Calm.pre (Q := HasResp) ?_ fun s' h => h.1.1
      calm_walk

theorem responseLineComplete_calm (e : Env) (l : Bytes) :
    Calm (fun s => s.input.isGap = false) Top (responseLineComplete e l) := by
  unfold responseLineComplete
  refine Calm.bind_keep Calm.checkResponseBufferLimit (fun _ => ?_) fun _ _ => trivial
  refine Calm.ite (fun _ => Calm.fail fun _ _ => trivial) fun _ => ?_
  refine Calm.bind_ok (Q := RespData) (fun s h => ?_) fun _ => ?_
  · have h1 := hasResp_of_ok (e := e) (x := .error) (f := pure) (fun t => Calm.pure fun _ h => h) s
    rw [M.bind_pure_right] at h1
    refine ⟨h1.1, fun b hb => ⟨h1.2 b hb, ?_⟩⟩
    rw [responseTx_input]
    exact h
  · refine Calm.ite (fun _ => ?_) fun _ => responseLineRead_calm e l
    refine Calm.pre (Q := HasResp) ?_ fun s' h => h.1
    calm_walk

theorem responseLine_calm (e : Env) : Calm (fun s => s.input.isGap = false) Top (responseLine e) := by
  unfold responseLine
  refine Calm.bind_read fun s => ?_
  have key : ∀ n l, Calm (fun s => s.input.isGap = false) Top (do
      setResp fun h => { h with buf := [] }
      responseConsume n
      responseLineComplete e l) := fun n l s h =>
    responseLineComplete_calm e l _ (by
      show (s.input.consume n).isGap = false
      rw [PData.consume_isGap]
      exact h)
  split
  · exact key _ _
  · refine Calm.ite (fun _ => key _ _) fun _ => ?_
    exact (handleResponseAbsentLf_calm e .top).pre fun _ _ => trivial

theorem responseTrailer_calm (e : Env) : Calm HasResp HasResp (responseTrailer e) := by
  unfold responseTrailer
  calm_walk

macro_rules | `(tactic| calm_known) => `(tactic| exact responseTrailer_calm _)

theorem responseHeadersClosed_calm (e : Env) : Calm Top Top (responseHeadersClosed e) := by
  unfold responseHeadersClosed
  calm_walk

macro_rules | `(tactic| calm_known) => `(tactic| exact responseHeadersClosed_calm _)

theorem responseHeadersDone_calm (e : Env) : Calm HasResp HasResp (responseHeadersDone e) := by
  unfold responseHeadersDone
  calm_walk

macro_rules | `(tactic| calm_known) => `(tactic| exact responseHeadersDone_calm _)

theorem responseHeaders_calm (e : Env) : Calm Top Top (responseHeaders e) := by
  unfold responseHeaders
  refine Calm.bind_read fun s => ?_
  refine Calm.ite (fun _ => responseHeadersClosed_calm e) fun _ => ?_
  dsimp only
  refine Calm.bind (Q := Top) (Calm.setResp .top) (fun _ => ?_) fun _ _ => trivial
  refine Calm.bind_ok (Q := HasResp) (fun s _ => ?_) fun b => ?_
  · unfold withResponse
    refine hasResp_of_ok (fun t => ?_) s
    calm_walk
  · calm_walk

theorem responseFinalizeLine_calm (e : Env) (w : Bytes) : Calm Top Top (responseFinalizeLine e w) := by
  unfold responseFinalizeLine
  calm_walk

macro_rules | `(tactic| calm_known) => `(tactic| exact responseFinalizeLine_calm _ _)

theorem responseFinalize_calm (e : Env) : Calm Top Top (responseFinalize e) := by
  unfold responseFinalize
  calm_walk

theorem responseWithoutRequest_calm (e : Env) (t : Tx) : Calm HasResp Top (responseWithoutRequest e t) := by
  unfold responseWithoutRequest
  calm_walk

theorem responseIdle_calm (e : Env) : Calm Top Top (responseIdle e) := by
  unfold responseIdle
  refine Calm.bind_read fun s => ?_
  refine Calm.ite (fun _ => Calm.fail fun _ _ => trivial) fun _ => ?_
  refine Calm.bind_responseTx fun t => ?_
  refine Calm.bind (Q := Top) (Calm.when (fun _ _ => trivial) fun _ => responseWithoutRequest_calm e t)
    (fun _ => ?_) fun _ _ => trivial
  calm_walk

theorem handleResponseState_calm (e : Env) :
    Calm (fun s => s.input.isGap = true → responseGapState s.resp.state = true) Top (handleResponseState e) := by
  unfold handleResponseState
  refine Calm.bind_state fun s => ?_
  have ng : responseGapState s.resp.state = false → ∀ s' : Conn,
      ((s'.input.isGap = true → responseGapState s'.resp.state = true) ∧ s' = s) → s'.input.isGap = false := by
    rintro hs s' ⟨hg, rfl⟩
    cases h : s'.input.isGap with
    | false => rfl
    | true => rw [hg h] at hs; cases hs
  split
  next hs => exact Calm.pre (responseIdle_calm e) fun _ _ => trivial
  next hs => exact Calm.pre (responseLine_calm e) (ng (by rw [hs]; rfl))
  next hs => exact Calm.pre (responseHeaders_calm e) fun _ _ => trivial
  next hs => exact Calm.pre (responseBodyDetermine_calm e) fun _ _ => trivial
  next hs => exact Calm.pre (responseBodyChunkedData_calm e) (ng (by rw [hs]; rfl))
  next hs => exact Calm.pre (responseBodyChunkedLength_calm e) fun _ _ => trivial
  next hs => exact Calm.pre (responseBodyChunkedDataEnd_calm e) fun _ _ => trivial
  next hs => exact Calm.pre (responseFinalize_calm e) fun _ _ => trivial
  next hs => exact Calm.pre (responseBodyIdentityStreamClose_calm e) fun _ _ => trivial
  next hs => exact Calm.pre (responseBodyIdentityClKnown_calm e) fun _ _ => trivial
  all_goals exact Calm.fail fun _ _ => trivial

/-! ### The loop and the call -/

theorem responseAfterStep_calm (e : Env) (rc : Except Status Unit) : Calm Top Top (responseAfterStep e rc) := by
  unfold responseAfterStep responseReturn
  calm_walk

theorem responseHandleStateChange_calm (e : Env) : Calm Top Top (responseHandleStateChange e) := by
  unfold responseHandleStateChange
  have := responseSetReceiver_calm e
  calm_walk

theorem responseStepTail_calm (e : Env) (rc : Except Status Unit) : Calm Top Top (responseStepTail e rc) := by
  unfold responseStepTail
  have h1 := responseHandleStateChange_calm e
  have h2 := responseAfterStep_calm e
  refine Calm.bind_read fun s => ?_
  split
  · refine Calm.ite (fun _ => Calm.pure fun _ _ => trivial) fun _ => ?_
    exact Calm.bind (Q := Top) (Calm.attempt h1) (fun r => h2 r) fun _ _ => trivial
  · exact h2 _

theorem responseStep_calm (e : Env) : Calm Top Top (responseStep e) := by
  unfold responseStep
  refine Calm.bind_state fun s => ?_
  refine Calm.ite (fun _ => Calm.pure fun _ _ => trivial) fun hg => ?_
  refine Calm.bind (Q := Top) (Calm.attempt ((handleResponseState_calm e).pre fun s' h => ?_))
    (fun r => responseStepTail_calm e r) fun _ _ => trivial
  obtain ⟨_, rfl⟩ := h
  exact fun h => by simpa [h] using hg

theorem responseLoop_calm (e : Env) (n : Nat) : Calm Top Top (responseLoop e n) := by
  induction n with
  | zero => exact Calm.pure fun _ _ => trivial
  | succ n ih =>
    unfold responseLoop
    refine Calm.bind (Q := Top) (responseStep_calm e) (fun r => ?_) fun _ _ => trivial
    split
    · exact Calm.pure fun _ _ => trivial
    · exact ih

theorem responseNoteGap_calm (e : Env) : Calm Top Top (responseNoteGap e) := by
  unfold responseNoteGap responseReturn
  calm_walk

theorem responseProcess_calm (e : Env) : Calm Top Top (responseProcess e) := by
  unfold responseProcess responseEarly
  have h1 := responseNoteGap_calm e
  refine Calm.bind_read fun s => ?_
  refine Calm.bind (Q := Top) ?_ (fun r => ?_) fun _ _ => trivial
  · calm_walk
  · split
    · exact Calm.pure fun _ _ => trivial
    · exact responseLoop_calm e _

theorem responseData_calm (e : Env) (c : PData) : Calm Top Top (responseData e c) := by
  unfold responseData
  have h := responseProcess_calm e
  calm_walk

theorem flushAll_calm (e : Env) (l : List Nat) : Calm Top Top (flushAll e l) := by
  induction l with
  | nil => exact Calm.pure fun _ _ => trivial
  | cons i is ih =>
    unfold flushAll flushOne
    refine Calm.bind (Q := Top) ?_ (fun _ => ih) fun _ _ => trivial
    refine Calm.bind (Q := Top) (Calm.attempt (Calm.runTxHook .top)) (fun _ => ?_) fun _ _ => trivial
    exact Calm.when (fun _ _ => trivial) fun _ => fun _ _ => ⟨by simp [M.modify], trivial⟩

theorem closeConn_calm {e : Env} (he : e.ovf = false) : Calm Top Top (closeConn e) := by
  unfold closeConn
  refine Calm.bind (Q := Top) (Calm.modify .top fun _ => rfl) (fun _ => ?_) fun _ _ => trivial
  refine Calm.bind (Q := Top) (requestData_calm he _) (fun _ => ?_) fun _ _ => trivial
  refine Calm.bind (Q := Top) (responseData_calm e _) (fun _ => ?_) fun _ _ => trivial
  refine Calm.bind_read fun s => ?_
  refine Calm.bind (Q := Top) (Calm.when (fun _ _ => trivial) fun _ => flushAll_calm e _) (fun _ => ?_)
    fun _ _ => trivial
  exact Calm.pure fun _ _ => trivial

theorem Op.run_calm {e : Env} (he : e.ovf = false) (op : Op) : Calm Top Top (op.run e) := by
  cases op with
  | «open» =>
    exact Calm.bind (Q := Top) (fun _ _ => ⟨by simp [openConn, M.modify], trivial⟩)
      (fun _ => Calm.pure fun _ _ => trivial) fun _ _ => trivial
  | request c => exact requestData_calm he _
  | response c => exact responseData_calm e _
  | requestClose => exact requestClose_calm he
  | close =>
    exact Calm.bind (Q := Top) (closeConn_calm he) (fun _ => Calm.pure fun _ _ => trivial) fun _ _ => trivial
  | removeTx i =>
    exact Calm.bind (Q := Top) (fun _ _ => ⟨by simp [M.modify], trivial⟩)
      (fun _ => Calm.pure fun _ _ => trivial) fun _ _ => trivial
  | askRequest =>
    exact Calm.bind (Q := Top) (fun _ _ => ⟨by simp [Model.askRequest], trivial⟩)
      (fun _ => Calm.pure fun _ _ => trivial) fun _ _ => trivial
  | askResponse =>
    exact Calm.bind (Q := Top) (fun _ _ => ⟨by simp [Model.askResponse], trivial⟩)
      (fun _ => Calm.pure fun _ _ => trivial) fun _ _ => trivial

end Model

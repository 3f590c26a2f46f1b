/-
What the response functions leave alone.
-/
import Verif.Lemmas.ConnReqFrame

namespace Model

open M

/-- How a response function may change the request side: its status (never that of a failed stream) and
its state. -/
structure ReqTouched (h h' : Half) : Prop where
  eq : h' = { h with status := h'.status, state := h'.state }
  status : h'.status = h.status ∨ h.status ≠ .error ∧ (h'.status = .data ∨ h'.status = .tunnel)
  state : h'.state = h.state ∨ h'.state = .finalize

theorem ReqTouched.refl (h : Half) : ReqTouched h h := ⟨rfl, .inl rfl, .inl rfl⟩

theorem ReqTouched.trans {a b c : Half} (h : ReqTouched a b) (h' : ReqTouched b c) : ReqTouched a c := by
  refine ⟨?_, ?_, ?_⟩
  · rw [h'.1, h.1]
  · rcases h.2 with h1 | h1 <;> rcases h'.2 with h2 | h2
    · exact .inl (h2.trans h1)
    · rw [h1] at h2; exact .inr h2
    · rw [← h2] at h1; exact .inr h1
    · exact .inr ⟨h1.1, h2.2⟩
  · rcases h.3 with h1 | h1 <;> rcases h'.3 with h2 | h2
    · exact .inl (h2.trans h1)
    · exact .inr h2
    · exact .inr (h2.trans h1)
    · exact .inr h2

/-- What no response function changes. -/
structure RespFrame (s s' : Conn) : Prop where
  req : ReqTouched s.req s'.req
  count : s'.requestChunkCount = s.requestChunkCount
  index : s'.requestChunkRequestIndex = s.requestChunkRequestIndex
  counter : s'.requestDataCounter = s.requestDataCounter
  counter' : s'.responseDataCounter = s.responseDataCounter
  data : s'.input.data = s.input.data
  gap : s'.input.gapLen = s.input.gapLen
  trace : s.trace <+: s'.trace

theorem RespFrame.pre : Pre RespFrame where
  refl _ := ⟨ReqTouched.refl _, rfl, rfl, rfl, rfl, rfl, rfl, List.prefix_rfl⟩
  trans h h' := ⟨h.1.trans h'.1, h'.2.trans h.2, h'.3.trans h.3, h'.4.trans h.4, h'.5.trans h.5,
    h'.6.trans h.6, h'.7.trans h.7, h.8.trans h'.8⟩

theorem Same.respFrame {s s' : Conn} (h : Same s s') : RespFrame s s' := by
  obtain ⟨m, evs, rfl⟩ := h
  exact ⟨ReqTouched.refl _, rfl, rfl, rfl, rfl, rfl, rfl, List.prefix_append ..⟩

theorem Rel.respFrame {α : Type} {m : M α} (h : Rel Same m) : Rel RespFrame m := fun s => (h s).respFrame

macro_rules | `(tactic| rel_pre) => `(tactic| exact RespFrame.pre)
macro_rules | `(tactic| rel_known) => `(tactic| (refine Rel.respFrame ?_; rel_known))

/-- Closes the primitive changes. -/
macro "resp_leaf" : tactic => `(tactic|
  exact ⟨ReqTouched.refl _, rfl, rfl, rfl, rfl, rfl, rfl, List.prefix_rfl⟩)

theorem responseConsume_frame (n : Nat) : Rel RespFrame (responseConsume n) := fun _ => by resp_leaf

theorem responseUnconsume_frame (n : Nat) : Rel RespFrame (responseUnconsume n) := fun s => by
  refine ⟨ReqTouched.refl _, rfl, rfl, rfl, rfl, ?_, ?_, List.prefix_rfl⟩ <;>
    simp only [responseUnconsume, M.modify, PData.unconsume] <;> split <;> rfl

theorem responseNext_frame (e : Env) : Rel RespFrame (responseNext e) := fun _ => by resp_leaf

theorem requestNext_respFrame (e : Env) : Rel RespFrame (requestNext e) := fun _ => by resp_leaf

macro_rules | `(tactic| rel_known) => `(tactic| exact responseConsume_frame _)
macro_rules | `(tactic| rel_known) => `(tactic| exact responseUnconsume_frame _)
macro_rules | `(tactic| rel_known) => `(tactic| exact responseNext_frame _)
macro_rules | `(tactic| rel_known) => `(tactic| exact requestNext_respFrame _)

theorem responseReceiverSendData_frame (e : Env) : Rel RespFrame (responseReceiverSendData e) := by
  unfold responseReceiverSendData
  rel_walk
  exact ⟨ReqTouched.refl _, rfl, rfl, rfl, rfl, callbackData_data _, callbackData_gap _, List.prefix_rfl⟩

macro_rules | `(tactic| rel_known) => `(tactic| exact responseReceiverSendData_frame _)

theorem responseReceiverFinalizeClear_frame (e : Env) : Rel RespFrame (responseReceiverFinalizeClear e) := by
  unfold responseReceiverFinalizeClear
  rel_walk <;> resp_leaf

macro_rules | `(tactic| rel_known) => `(tactic| exact responseReceiverFinalizeClear_frame _)

theorem responseSetReceiver_frame (e : Env) : Rel RespFrame (responseSetReceiver e) := by
  unfold responseSetReceiver
  rel_walk <;> resp_leaf

macro_rules | `(tactic| rel_known) => `(tactic| exact responseSetReceiver_frame _)

theorem responseHandleStateChange_frame (e : Env) : Rel RespFrame (responseHandleStateChange e) := by
  unfold responseHandleStateChange
  rel_walk <;> resp_leaf

macro_rules | `(tactic| rel_known) => `(tactic| exact responseHandleStateChange_frame _)

theorem handleResponseAbsentLf_frame (e : Env) : Rel RespFrame (handleResponseAbsentLf e) := by
  unfold handleResponseAbsentLf
  rel_walk <;> resp_leaf

macro_rules | `(tactic| rel_known) => `(tactic| exact handleResponseAbsentLf_frame _)

theorem stateResponseStart_frame (e : Env) : Rel RespFrame (stateResponseStart e) := by
  unfold stateResponseStart
  rel_walk <;> resp_leaf

theorem stateResponseHeaders_frame (e : Env) : Rel RespFrame (stateResponseHeaders e) := by
  unfold stateResponseHeaders
  rel_walk <;> resp_leaf

theorem stateResponseLine_frame (e : Env) : Rel RespFrame (stateResponseLine e) := by
  unfold stateResponseLine
  rel_walk <;> resp_leaf

theorem requestParserCheckWaiting_frame : Rel RespFrame requestParserCheckWaiting := by
  unfold requestParserCheckWaiting
  rel_walk <;> resp_leaf

theorem completeResponse_frame (e : Env) (t : Tx) : Rel RespFrame (completeResponse e t) := by
  unfold completeResponse
  rel_walk <;> resp_leaf

macro_rules | `(tactic| rel_known) => `(tactic| exact stateResponseStart_frame _)
macro_rules | `(tactic| rel_known) => `(tactic| exact stateResponseHeaders_frame _)
macro_rules | `(tactic| rel_known) => `(tactic| exact stateResponseLine_frame _)
macro_rules | `(tactic| rel_known) => `(tactic| exact requestParserCheckWaiting_frame)
macro_rules | `(tactic| rel_known) => `(tactic| exact completeResponse_frame _ _)

theorem stateResponseComplete_frame (e : Env) : Rel RespFrame (stateResponseComplete e) := by
  unfold stateResponseComplete
  rel_walk <;> resp_leaf

macro_rules | `(tactic| rel_known) => `(tactic| exact stateResponseComplete_frame _)

theorem responseBodyChunkedDataEnd_frame (e : Env) : Rel RespFrame (responseBodyChunkedDataEnd e) := by
  unfold responseBodyChunkedDataEnd
  rel_walk <;> resp_leaf

theorem responseBodyChunkedData_frame (e : Env) : Rel RespFrame (responseBodyChunkedData e) := by
  unfold responseBodyChunkedData
  rel_walk <;> resp_leaf

theorem responseChunkLine_frame (e : Env) (l : Bytes) : Rel RespFrame (responseChunkLine e l) := by
  unfold responseChunkLine
  rel_walk <;> resp_leaf

macro_rules | `(tactic| rel_known) => `(tactic| exact responseChunkLine_frame _ _)

theorem responseChunkedLengthLoop_frame (e : Env) (d : Bytes) :
    Rel RespFrame (responseChunkedLengthLoop e d) := by
  induction h : d.length using Nat.strongRecOn generalizing d with
  | ind n ih =>
    unfold responseChunkedLengthLoop
    refine Rel.bind RespFrame.pre (by rel_known) fun t => ?_
    split
    next remaining line hl =>
      have := takeTillIncl_shorter hl
      have ih := ih remaining.length (by omega) remaining rfl
      rel_walk
    all_goals rel_walk <;> resp_leaf

macro_rules | `(tactic| rel_known) => `(tactic| exact responseChunkedLengthLoop_frame _ _)

theorem responseBodyChunkedLength_frame (e : Env) : Rel RespFrame (responseBodyChunkedLength e) := by
  unfold responseBodyChunkedLength
  rel_walk

theorem responseIdentityOpen_frame (e : Env) : Rel RespFrame (responseIdentityOpen e) := by
  unfold responseIdentityOpen
  rel_walk <;> resp_leaf

macro_rules | `(tactic| rel_known) => `(tactic| exact responseIdentityOpen_frame _)

theorem responseBodyIdentityClKnown_frame (e : Env) : Rel RespFrame (responseBodyIdentityClKnown e) := by
  unfold responseBodyIdentityClKnown
  rel_walk <;> resp_leaf

theorem responseStreamData_frame (e : Env) : Rel RespFrame (responseStreamData e) := by
  unfold responseStreamData
  rel_walk

macro_rules | `(tactic| rel_known) => `(tactic| exact responseStreamData_frame _)

theorem responseBodyIdentityStreamClose_frame (e : Env) :
    Rel RespFrame (responseBodyIdentityStreamClose e) := by
  unfold responseBodyIdentityStreamClose
  rel_walk <;> resp_leaf

theorem unblockRequest_frame : Rel RespFrame unblockRequest := by
  unfold unblockRequest
  refine Rel.setReq fun s => ⟨⟨rfl, ?_, .inl rfl⟩, rfl, rfl, rfl, rfl, rfl, rfl, List.prefix_rfl⟩
  by_cases h : s.req.status = .error
  · exact .inl (by rw [if_pos h, h])
  · exact .inr ⟨h, .inl (if_neg h)⟩

macro_rules | `(tactic| rel_known) => `(tactic| exact unblockRequest_frame)

theorem responseConnect_frame (e : Env) : Rel RespFrame (responseConnect e) := by
  unfold responseConnect
  rel_walk <;> resp_leaf

macro_rules | `(tactic| rel_known) => `(tactic| exact responseConnect_frame _)

theorem responseSwitch_frame : Rel RespFrame responseSwitch := by
  unfold responseSwitch
  refine Rel.modify fun s => ⟨?_, rfl, rfl, rfl, rfl, rfl, rfl, List.prefix_rfl⟩
  by_cases h : s.req.status = .error
  · simp only [h, if_true]; exact ReqTouched.refl _
  · simp only [h, if_false]; exact ⟨rfl, .inr ⟨h, .inr rfl⟩, .inl rfl⟩

macro_rules | `(tactic| rel_known) => `(tactic| exact responseSwitch_frame)

theorem responseContinue_frame (e : Env) : Rel RespFrame (responseContinue e) := by
  unfold responseContinue
  rel_walk <;> resp_leaf

macro_rules | `(tactic| rel_known) => `(tactic| exact responseContinue_frame _)

theorem responseExpect_frame (e : Env) : Rel RespFrame (responseExpect e) := by
  unfold responseExpect
  rel_walk
  exact ⟨⟨rfl, .inl rfl, .inr rfl⟩, rfl, rfl, rfl, rfl, rfl, rfl, List.prefix_rfl⟩

macro_rules | `(tactic| rel_known) => `(tactic| exact responseExpect_frame _)

theorem responseInterim_frame (e : Env) (te cl : Option Header) :
    Rel RespFrame (responseInterim e te cl) := by
  unfold responseInterim
  rel_walk

theorem responseNoBody_frame (e : Env) (te cl : Option Header) :
    Rel RespFrame (responseNoBody e te cl) := by
  unfold responseNoBody
  rel_walk <;> resp_leaf

theorem responseChunked_frame (e : Env) (cl : Option Header) : Rel RespFrame (responseChunked e cl) := by
  unfold responseChunked
  rel_walk <;> resp_leaf

theorem responseLength_frame (e : Env) (cl : Header) : Rel RespFrame (responseLength e cl) := by
  unfold responseLength
  rel_walk <;> resp_leaf

theorem responseUntilClose_frame (e : Env) (b : Bool) : Rel RespFrame (responseUntilClose e b) := by
  unfold responseUntilClose
  rel_walk <;> resp_leaf

macro_rules | `(tactic| rel_known) => `(tactic| exact responseInterim_frame _ _ _)
macro_rules | `(tactic| rel_known) => `(tactic| exact responseNoBody_frame _ _ _)
macro_rules | `(tactic| rel_known) => `(tactic| exact responseChunked_frame _ _)
macro_rules | `(tactic| rel_known) => `(tactic| exact responseLength_frame _ _)
macro_rules | `(tactic| rel_known) => `(tactic| exact responseUntilClose_frame _ _)

theorem responseFraming_frame (e : Env) (te cl : Option Header) :
    Rel RespFrame (responseFraming e te cl) := by
  unfold responseFraming
  rel_walk

macro_rules | `(tactic| rel_known) => `(tactic| exact responseFraming_frame _ _ _)

theorem responseBody_frame (e : Env) (te cl : Option Header) : Rel RespFrame (responseBody e te cl) := by
  unfold responseBody
  rel_walk

macro_rules | `(tactic| rel_known) => `(tactic| exact responseBody_frame _ _ _)

theorem responseDetermineRest_frame (e : Env) : Rel RespFrame (responseDetermineRest e) := by
  unfold responseDetermineRest
  rel_walk

macro_rules | `(tactic| rel_known) => `(tactic| exact responseDetermineRest_frame _)

theorem responseBodyDetermine_frame (e : Env) : Rel RespFrame (responseBodyDetermine e) := by
  unfold responseBodyDetermine
  rel_walk

theorem responseLineAsBody_frame (e : Env) (l : Bytes) : Rel RespFrame (responseLineAsBody e l) := by
  unfold responseLineAsBody
  rel_walk <;> resp_leaf

macro_rules | `(tactic| rel_known) => `(tactic| exact responseLineAsBody_frame _ _)

theorem responseLineRead_frame (e : Env) (l : Bytes) : Rel RespFrame (responseLineRead e l) := by
  unfold responseLineRead
  rel_walk <;> resp_leaf

macro_rules | `(tactic| rel_known) => `(tactic| exact responseLineRead_frame _ _)

theorem responseLineComplete_frame (e : Env) (l : Bytes) : Rel RespFrame (responseLineComplete e l) := by
  unfold responseLineComplete
  rel_walk <;> resp_leaf

macro_rules | `(tactic| rel_known) => `(tactic| exact responseLineComplete_frame _ _)

theorem responseLine_frame (e : Env) : Rel RespFrame (responseLine e) := by
  unfold responseLine
  rel_walk <;> resp_leaf

theorem responseTrailer_frame (e : Env) : Rel RespFrame (responseTrailer e) := by
  unfold responseTrailer
  rel_walk <;> resp_leaf

macro_rules | `(tactic| rel_known) => `(tactic| exact responseTrailer_frame _)

theorem responseHeadersClosed_frame (e : Env) : Rel RespFrame (responseHeadersClosed e) := by
  unfold responseHeadersClosed
  rel_walk <;> resp_leaf

theorem responseHeadersDone_frame (e : Env) : Rel RespFrame (responseHeadersDone e) := by
  unfold responseHeadersDone
  rel_walk <;> resp_leaf

macro_rules | `(tactic| rel_known) => `(tactic| exact responseHeadersClosed_frame _)
macro_rules | `(tactic| rel_known) => `(tactic| exact responseHeadersDone_frame _)

theorem responseHeaders_frame (e : Env) : Rel RespFrame (responseHeaders e) := by
  unfold responseHeaders
  rel_walk <;> resp_leaf

theorem responseFinalizeLine_frame (e : Env) (l : Bytes) : Rel RespFrame (responseFinalizeLine e l) := by
  unfold responseFinalizeLine
  rel_walk <;> resp_leaf

macro_rules | `(tactic| rel_known) => `(tactic| exact responseFinalizeLine_frame _ _)

theorem responseFinalize_frame (e : Env) : Rel RespFrame (responseFinalize e) := by
  unfold responseFinalize
  rel_walk

theorem responseWithoutRequest_frame (e : Env) (t : Tx) : Rel RespFrame (responseWithoutRequest e t) := by
  unfold responseWithoutRequest
  rel_walk

macro_rules | `(tactic| rel_known) => `(tactic| exact responseWithoutRequest_frame _ _)

theorem responseIdle_frame (e : Env) : Rel RespFrame (responseIdle e) := by
  unfold responseIdle
  rel_walk <;> resp_leaf

theorem handleResponseState_frame (e : Env) : Rel RespFrame (handleResponseState e) := by
  unfold handleResponseState
  refine Rel.bind RespFrame.pre (Rel.state RespFrame.pre) fun s => ?_
  cases s.resp.state
  case idle => exact responseIdle_frame e
  case line => exact responseLine_frame e
  case headers => exact responseHeaders_frame e
  case bodyDetermine => exact responseBodyDetermine_frame e
  case bodyChunkedData => exact responseBodyChunkedData_frame e
  case bodyChunkedLength => exact responseBodyChunkedLength_frame e
  case bodyChunkedDataEnd => exact responseBodyChunkedDataEnd_frame e
  case finalize => exact responseFinalize_frame e
  case bodyIdentityStreamClose => exact responseBodyIdentityStreamClose_frame e
  case bodyIdentityClKnown => exact responseBodyIdentityClKnown_frame e
  all_goals exact Rel.fail RespFrame.pre

macro_rules | `(tactic| rel_known) => `(tactic| exact handleResponseState_frame _)

theorem responseReturn_frame (st : StreamState) : Rel RespFrame (responseReturn st) := by
  unfold responseReturn
  rel_walk <;> resp_leaf

macro_rules | `(tactic| rel_known) => `(tactic| exact responseReturn_frame _)

theorem responseAfterStep_frame (e : Env) (rc : Except Status Unit) :
    Rel RespFrame (responseAfterStep e rc) := by
  unfold responseAfterStep
  rel_walk

macro_rules | `(tactic| rel_known) => `(tactic| exact responseAfterStep_frame _ _)

theorem responseStepTail_frame (e : Env) (rc : Except Status Unit) :
    Rel RespFrame (responseStepTail e rc) := by
  unfold responseStepTail
  rel_walk

macro_rules | `(tactic| rel_known) => `(tactic| exact responseStepTail_frame _ _)

theorem responseStep_frame (e : Env) : Rel RespFrame (responseStep e) := by
  unfold responseStep
  rel_walk

macro_rules | `(tactic| rel_known) => `(tactic| exact responseStep_frame _)

theorem responseLoop_frame (e : Env) (n : Nat) : Rel RespFrame (responseLoop e n) := by
  induction n with
  | zero => exact Rel.pure RespFrame.pre
  | succ n ih =>
    unfold responseLoop
    rel_walk

macro_rules | `(tactic| rel_known) => `(tactic| exact responseLoop_frame _ _)

theorem responseNoteGap_frame (e : Env) : Rel RespFrame (responseNoteGap e) := by
  unfold responseNoteGap
  rel_walk

macro_rules | `(tactic| rel_known) => `(tactic| exact responseNoteGap_frame _)

theorem responseEarly_frame (e : Env) : Rel RespFrame (responseEarly e) := by
  unfold responseEarly
  rel_walk

macro_rules | `(tactic| rel_known) => `(tactic| exact responseEarly_frame _)

theorem responseProcess_frame (e : Env) : Rel RespFrame (responseProcess e) := by
  unfold responseProcess
  rel_walk

end Model

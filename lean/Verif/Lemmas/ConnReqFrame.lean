/-
What the request functions leave alone.
-/
import Verif.Lemmas.Conn

namespace Model

open M

/-- What no request function changes (`stat` says how the status of the response stream may change). -/
structure ReqFrame (s s' : Conn) : Prop where
  resp : s'.resp = s.resp ∨ s'.resp = { s.resp with status := .tunnel }
  other : s'.responseDataOtherAtTxEnd = s.responseDataOtherAtTxEnd
  count : s'.requestChunkCount = s.requestChunkCount
  counter : s'.requestDataCounter = s.requestDataCounter
  counter' : s'.responseDataCounter = s.responseDataCounter
  data : s'.input.data = s.input.data
  gap : s'.input.gapLen = s.input.gapLen
  response : s'.txs.response = s.txs.response
  trace : s.trace <+: s'.trace

theorem ReqFrame.pre : Pre ReqFrame where
  refl s := ⟨.inl rfl, rfl, rfl, rfl, rfl, rfl, rfl, rfl, List.prefix_rfl⟩
  trans := by
    intro a b c h h'
    refine ⟨?_, h'.2.trans h.2, h'.3.trans h.3, h'.4.trans h.4, h'.5.trans h.5, h'.6.trans h.6,
      h'.7.trans h.7, h'.8.trans h.8, h.9.trans h'.9⟩
    rcases h.1 with h1 | h1 <;> rcases h'.1 with h2 | h2 <;> rw [h2, h1] <;> simp

theorem Same.reqFrame {s s' : Conn} (h : Same s s') : ReqFrame s s' := by
  obtain ⟨m, evs, rfl⟩ := h
  exact ⟨.inl rfl, rfl, rfl, rfl, rfl, rfl, rfl, rfl, List.prefix_append ..⟩

theorem Rel.reqFrame {α : Type} {m : M α} (h : Rel Same m) : Rel ReqFrame m := fun s => (h s).reqFrame

macro_rules | `(tactic| rel_pre) => `(tactic| exact ReqFrame.pre)
macro_rules | `(tactic| rel_known) => `(tactic| (refine Rel.reqFrame ?_; rel_known))

theorem requestConsume_frame (n : Nat) : Rel ReqFrame (requestConsume n) := fun _ =>
  ⟨.inl rfl, rfl, rfl, rfl, rfl, rfl, rfl, rfl, List.prefix_rfl⟩

theorem requestUnconsume_frame (n : Nat) : Rel ReqFrame (requestUnconsume n) := fun s => by
  refine ⟨.inl rfl, rfl, rfl, rfl, rfl, ?_, ?_, rfl, List.prefix_rfl⟩ <;>
    simp only [requestUnconsume, M.modify, PData.unconsume] <;> split <;> rfl

theorem checkFree_response (a : Bool) (t : Txs) (k : Nat) :
    (t.checkFree a k).response = t.response ∧ (t.checkFree a k).request = t.request := by
  unfold Txs.checkFree
  split
  · split
    · split <;> exact ⟨rfl, rfl⟩
    · exact ⟨rfl, rfl⟩
  · exact ⟨rfl, rfl⟩

theorem requestNext_frame (e : Env) : Rel ReqFrame (requestNext e) := fun s => by
  refine ⟨.inl rfl, rfl, rfl, rfl, rfl, rfl, rfl, ?_, List.prefix_rfl⟩
  simp only [requestNext, M.modify, Txs.requestNext]
  exact (checkFree_response ..).1

macro_rules | `(tactic| rel_known) => `(tactic| exact requestConsume_frame _)
macro_rules | `(tactic| rel_known) => `(tactic| exact requestUnconsume_frame _)
macro_rules | `(tactic| rel_known) => `(tactic| exact requestNext_frame _)

/-- Closes the primitive changes. -/
macro "frame_leaf" : tactic => `(tactic|
  exact ⟨.inl rfl, rfl, rfl, rfl, rfl, rfl, rfl, rfl, List.prefix_rfl⟩)

theorem callbackData_data (d : PData) : d.callbackData.2.data = d.data := by
  unfold PData.callbackData
  split
  · rfl
  · split <;> rfl

theorem callbackData_gap (d : PData) : d.callbackData.2.gapLen = d.gapLen := by
  unfold PData.callbackData
  split
  · rfl
  · split <;> rfl

theorem callbackData_position (d : PData) : d.callbackData.2.position = d.position := by
  unfold PData.callbackData
  split
  · rfl
  · split <;> rfl

theorem requestReceiverSendData_frame (e : Env) : Rel ReqFrame (requestReceiverSendData e) := by
  unfold requestReceiverSendData
  rel_walk
  exact ⟨.inl rfl, rfl, rfl, rfl, rfl, callbackData_data _, callbackData_gap _, rfl, List.prefix_rfl⟩

macro_rules | `(tactic| rel_known) => `(tactic| exact requestReceiverSendData_frame _)

theorem requestReceiverFinalizeClear_frame (e : Env) : Rel ReqFrame (requestReceiverFinalizeClear e) := by
  unfold requestReceiverFinalizeClear
  rel_walk <;> frame_leaf

macro_rules | `(tactic| rel_known) => `(tactic| exact requestReceiverFinalizeClear_frame _)

theorem requestSetReceiver_frame (e : Env) : Rel ReqFrame (requestSetReceiver e) := by
  unfold requestSetReceiver
  rel_walk <;> frame_leaf

macro_rules | `(tactic| rel_known) => `(tactic| exact requestSetReceiver_frame _)

theorem requestHandleStateChange_frame (e : Env) : Rel ReqFrame (requestHandleStateChange e) := by
  unfold requestHandleStateChange
  rel_walk <;> frame_leaf

macro_rules | `(tactic| rel_known) => `(tactic| exact requestHandleStateChange_frame _)

theorem handleRequestAbsentLf_frame (e : Env) : Rel ReqFrame (handleRequestAbsentLf e) := by
  unfold handleRequestAbsentLf
  rel_walk <;> frame_leaf

macro_rules | `(tactic| rel_known) => `(tactic| exact handleRequestAbsentLf_frame _)

theorem stateRequestStart_frame (e : Env) : Rel ReqFrame (stateRequestStart e) := by
  unfold stateRequestStart
  rel_walk <;> frame_leaf

theorem stateRequestTrailer_frame (e : Env) : Rel ReqFrame (stateRequestTrailer e) := by
  unfold stateRequestTrailer
  rel_walk <;> frame_leaf

theorem stateRequestHeadersDone_frame (e : Env) : Rel ReqFrame (stateRequestHeadersDone e) := by
  unfold stateRequestHeadersDone
  rel_walk <;> frame_leaf

macro_rules | `(tactic| rel_known) => `(tactic| exact stateRequestStart_frame _)
macro_rules | `(tactic| rel_known) => `(tactic| exact stateRequestTrailer_frame _)
macro_rules | `(tactic| rel_known) => `(tactic| exact stateRequestHeadersDone_frame _)

theorem stateRequestHeaders_frame (e : Env) : Rel ReqFrame (stateRequestHeaders e) := by
  unfold stateRequestHeaders
  rel_walk

theorem stateRequestLine_frame (e : Env) : Rel ReqFrame (stateRequestLine e) := by
  unfold stateRequestLine
  rel_walk <;> frame_leaf

theorem completeRequest_frame (e : Env) (t : Tx) : Rel ReqFrame (completeRequest e t) := by
  unfold completeRequest
  rel_walk

macro_rules | `(tactic| rel_known) => `(tactic| exact stateRequestHeaders_frame _)
macro_rules | `(tactic| rel_known) => `(tactic| exact stateRequestLine_frame _)
macro_rules | `(tactic| rel_known) => `(tactic| exact completeRequest_frame _ _)

theorem stateRequestComplete_frame (e : Env) : Rel ReqFrame (stateRequestComplete e) := by
  unfold stateRequestComplete
  rel_walk <;> frame_leaf

macro_rules | `(tactic| rel_known) => `(tactic| exact stateRequestComplete_frame _)

theorem requestConnectCheck_frame (e : Env) : Rel ReqFrame (requestConnectCheck e) := by
  unfold requestConnectCheck
  rel_walk <;> frame_leaf

theorem requestConnectProbeData_frame (e : Env) : Rel ReqFrame (requestConnectProbeData e) := by
  unfold requestConnectProbeData
  rel_walk
  exact ⟨.inr rfl, rfl, rfl, rfl, rfl, rfl, rfl, rfl, List.prefix_rfl⟩

theorem requestConnectWaitResponse_frame (e : Env) : Rel ReqFrame (requestConnectWaitResponse e) := by
  unfold requestConnectWaitResponse
  rel_walk <;> frame_leaf

theorem requestBodyChunkedDataEnd_frame (e : Env) : Rel ReqFrame (requestBodyChunkedDataEnd e) := by
  unfold requestBodyChunkedDataEnd
  rel_walk <;> frame_leaf

theorem requestBodyChunkedData_frame (e : Env) : Rel ReqFrame (requestBodyChunkedData e) := by
  unfold requestBodyChunkedData
  rel_walk <;> frame_leaf

theorem requestChunkLine_frame (e : Env) (l : Bytes) : Rel ReqFrame (requestChunkLine e l) := by
  unfold requestChunkLine
  rel_walk <;> frame_leaf

macro_rules | `(tactic| rel_known) => `(tactic| exact requestChunkLine_frame _ _)

theorem requestChunkedLengthLoop_frame (e : Env) (d : Bytes) :
    Rel ReqFrame (requestChunkedLengthLoop e d) := by
  induction h : d.length using Nat.strongRecOn generalizing d with
  | ind n ih =>
    unfold requestChunkedLengthLoop
    split
    next remaining line hl =>
      have := takeTillIncl_shorter hl
      have ih := ih remaining.length (by omega) remaining rfl
      rel_walk
    all_goals rel_walk

macro_rules | `(tactic| rel_known) => `(tactic| exact requestChunkedLengthLoop_frame _ _)

theorem requestBodyChunkedLength_frame (e : Env) : Rel ReqFrame (requestBodyChunkedLength e) := by
  unfold requestBodyChunkedLength
  rel_walk

theorem requestBodyIdentity_frame (e : Env) : Rel ReqFrame (requestBodyIdentity e) := by
  unfold requestBodyIdentity
  rel_walk <;> frame_leaf

theorem requestBodyDetermine_frame (e : Env) : Rel ReqFrame (requestBodyDetermine e) := by
  unfold requestBodyDetermine
  rel_walk <;> frame_leaf

theorem requestHeadersClosed_frame (e : Env) : Rel ReqFrame (requestHeadersClosed e) := by
  unfold requestHeadersClosed
  rel_walk <;> frame_leaf

macro_rules | `(tactic| rel_known) => `(tactic| exact requestHeadersClosed_frame _)

theorem requestHeaders_frame (e : Env) : Rel ReqFrame (requestHeaders e) := by
  unfold requestHeaders
  rel_walk <;> frame_leaf

theorem requestProtocol_frame (e : Env) : Rel ReqFrame (requestProtocol e) := by
  unfold requestProtocol
  rel_walk <;> frame_leaf

theorem requestLineComplete_frame (e : Env) (l : Bytes) : Rel ReqFrame (requestLineComplete e l) := by
  unfold requestLineComplete
  rel_walk

macro_rules | `(tactic| rel_known) => `(tactic| exact requestLineComplete_frame _ _)

theorem requestLine_frame (e : Env) : Rel ReqFrame (requestLine e) := by
  unfold requestLine
  rel_walk <;> frame_leaf

theorem requestFinalizeLine_frame (e : Env) (l : Bytes) : Rel ReqFrame (requestFinalizeLine e l) := by
  unfold requestFinalizeLine
  rel_walk <;> frame_leaf

macro_rules | `(tactic| rel_known) => `(tactic| exact requestFinalizeLine_frame _ _)

theorem requestFinalize_frame (e : Env) : Rel ReqFrame (requestFinalize e) := by
  unfold requestFinalize
  rel_walk

theorem requestIgnoreDataAfterHttp09_frame : Rel ReqFrame requestIgnoreDataAfterHttp09 := by
  unfold requestIgnoreDataAfterHttp09
  rel_walk <;> frame_leaf

theorem requestReset_frame : Rel ReqFrame requestReset := by
  unfold requestReset
  rel_walk <;> frame_leaf

macro_rules | `(tactic| rel_known) => `(tactic| exact requestReset_frame)

theorem requestIdle_frame (e : Env) : Rel ReqFrame (requestIdle e) := by
  unfold requestIdle
  rel_walk

theorem handleRequestState_frame (e : Env) : Rel ReqFrame (handleRequestState e) := by
  unfold handleRequestState
  refine Rel.bind ReqFrame.pre (Rel.state ReqFrame.pre) fun s => ?_
  cases s.req.state
  case idle => exact requestIdle_frame e
  case ignoreDataAfterHttp09 => exact requestIgnoreDataAfterHttp09_frame
  case line => exact requestLine_frame e
  case protocol => exact requestProtocol_frame e
  case headers => exact requestHeaders_frame e
  case connectWaitResponse => exact requestConnectWaitResponse_frame e
  case connectCheck => exact requestConnectCheck_frame e
  case connectProbeData => exact requestConnectProbeData_frame e
  case bodyDetermine => exact requestBodyDetermine_frame e
  case bodyChunkedData => exact requestBodyChunkedData_frame e
  case bodyChunkedLength => exact requestBodyChunkedLength_frame e
  case bodyChunkedDataEnd => exact requestBodyChunkedDataEnd_frame e
  case bodyIdentity => exact requestBodyIdentity_frame e
  case finalize => exact requestFinalize_frame e
  all_goals exact Rel.fail ReqFrame.pre

macro_rules | `(tactic| rel_known) => `(tactic| exact handleRequestState_frame _)

theorem requestReturn_frame (st : StreamState) : Rel ReqFrame (requestReturn st) := by
  unfold requestReturn
  rel_walk <;> frame_leaf

macro_rules | `(tactic| rel_known) => `(tactic| exact requestReturn_frame _)

theorem requestAfterStep_frame (e : Env) (rc : Except Status Unit) :
    Rel ReqFrame (requestAfterStep e rc) := by
  unfold requestAfterStep
  rel_walk

macro_rules | `(tactic| rel_known) => `(tactic| exact requestAfterStep_frame _ _)

theorem requestStepTail_frame (e : Env) (rc : Except Status Unit) :
    Rel ReqFrame (requestStepTail e rc) := by
  unfold requestStepTail
  rel_walk

macro_rules | `(tactic| rel_known) => `(tactic| exact requestStepTail_frame _ _)

theorem requestStep_frame (e : Env) : Rel ReqFrame (requestStep e) := by
  unfold requestStep
  rel_walk

macro_rules | `(tactic| rel_known) => `(tactic| exact requestStep_frame _)

theorem requestLoop_frame (e : Env) (n : Nat) : Rel ReqFrame (requestLoop e n) := by
  induction n with
  | zero => exact Rel.pure ReqFrame.pre
  | succ n ih =>
    unfold requestLoop
    rel_walk

macro_rules | `(tactic| rel_known) => `(tactic| exact requestLoop_frame _ _)

theorem requestNoteGap_frame (e : Env) : Rel ReqFrame (requestNoteGap e) := by
  unfold requestNoteGap
  rel_walk

macro_rules | `(tactic| rel_known) => `(tactic| exact requestNoteGap_frame _)

theorem requestEarly_frame (e : Env) : Rel ReqFrame (requestEarly e) := by
  unfold requestEarly
  rel_walk

macro_rules | `(tactic| rel_known) => `(tactic| exact requestEarly_frame _)

end Model

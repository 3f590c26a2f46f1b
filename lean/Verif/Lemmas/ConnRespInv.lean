/-
The response side: what does not move the window or the buffers, and which states follow.
-/
import Verif.Lemmas.ConnRespFrame
import Verif.Lemmas.ConnReqStep

namespace Model

open M

/-- Neither the window nor the buffers of the response side change. -/
structure RespKept (s s' : Conn) : Prop where
  buf : s'.resp.buf = s.resp.buf
  header : s'.resp.header = s.resp.header
  consumed : s'.resp.bytesConsumed = s.resp.bytesConsumed
  status : s'.resp.status = .closed → s.resp.status = .closed
  position : s'.input.position = s.input.position
  data : s'.input.data = s.input.data
  gap : s'.input.gapLen = s.input.gapLen

theorem RespKept.pre : Pre RespKept where
  refl _ := ⟨rfl, rfl, rfl, id, rfl, rfl, rfl⟩
  trans h h' := ⟨h'.1.trans h.1, h'.2.trans h.2, h'.3.trans h.3, fun x => h.4 (h'.4 x),
    h'.5.trans h.5, h'.6.trans h.6, h'.7.trans h.7⟩

theorem Same.respKept {s s' : Conn} (h : Same s s') : RespKept s s' := by
  obtain ⟨m, evs, rfl⟩ := h
  exact ⟨rfl, rfl, rfl, id, rfl, rfl, rfl⟩

theorem Rel.respKept {α : Type} {m : M α} (h : Rel Same m) : Rel RespKept m := fun s => (h s).respKept

macro_rules | `(tactic| rel_pre) => `(tactic| exact RespKept.pre)
macro_rules | `(tactic| rel_known) => `(tactic| (refine Rel.respKept ?_; rel_known))

theorem requestNext_respKept (e : Env) : Rel RespKept (requestNext e) := fun _ => by kept_leaf
theorem responseNext_kept (e : Env) : Rel RespKept (responseNext e) := fun _ => by kept_leaf

macro_rules | `(tactic| rel_known) => `(tactic| exact requestNext_respKept _)
macro_rules | `(tactic| rel_known) => `(tactic| exact responseNext_kept _)

theorem responseReceiverSendData_kept (e : Env) : Rel RespKept (responseReceiverSendData e) := by
  unfold responseReceiverSendData
  rel_walk
  exact ⟨rfl, rfl, rfl, id, callbackData_position _, callbackData_data _, callbackData_gap _⟩

macro_rules | `(tactic| rel_known) => `(tactic| exact responseReceiverSendData_kept _)

theorem responseReceiverFinalizeClear_kept (e : Env) : Rel RespKept (responseReceiverFinalizeClear e) := by
  unfold responseReceiverFinalizeClear
  rel_walk <;> kept_leaf

macro_rules | `(tactic| rel_known) => `(tactic| exact responseReceiverFinalizeClear_kept _)

theorem responseSetReceiver_kept (e : Env) : Rel RespKept (responseSetReceiver e) := by
  unfold responseSetReceiver
  rel_walk <;> kept_leaf

macro_rules | `(tactic| rel_known) => `(tactic| exact responseSetReceiver_kept _)

theorem responseHandleStateChange_kept (e : Env) : Rel RespKept (responseHandleStateChange e) := by
  unfold responseHandleStateChange
  rel_walk <;> kept_leaf

macro_rules | `(tactic| rel_known) => `(tactic| exact responseHandleStateChange_kept _)

theorem stateResponseStart_kept (e : Env) : Rel RespKept (stateResponseStart e) := by
  unfold stateResponseStart
  rel_walk <;> kept_leaf

theorem stateResponseHeaders_kept (e : Env) : Rel RespKept (stateResponseHeaders e) := by
  unfold stateResponseHeaders
  rel_walk

theorem stateResponseLine_kept (e : Env) : Rel RespKept (stateResponseLine e) := by
  unfold stateResponseLine
  rel_walk

theorem requestParserCheckWaiting_kept : Rel RespKept requestParserCheckWaiting := by
  unfold requestParserCheckWaiting
  rel_walk <;> kept_leaf

theorem completeResponse_kept (e : Env) (t : Tx) : Rel RespKept (completeResponse e t) := by
  unfold completeResponse
  rel_walk

macro_rules | `(tactic| rel_known) => `(tactic| exact stateResponseStart_kept _)
macro_rules | `(tactic| rel_known) => `(tactic| exact stateResponseHeaders_kept _)
macro_rules | `(tactic| rel_known) => `(tactic| exact stateResponseLine_kept _)
macro_rules | `(tactic| rel_known) => `(tactic| exact requestParserCheckWaiting_kept)
macro_rules | `(tactic| rel_known) => `(tactic| exact completeResponse_kept _ _)

theorem stateResponseComplete_kept (e : Env) : Rel RespKept (stateResponseComplete e) := by
  unfold stateResponseComplete
  rel_walk <;> kept_leaf

macro_rules | `(tactic| rel_known) => `(tactic| exact stateResponseComplete_kept _)

theorem unblockRequest_kept : Rel RespKept unblockRequest := by
  unfold unblockRequest
  rel_walk <;> kept_leaf

macro_rules | `(tactic| rel_known) => `(tactic| exact unblockRequest_kept)

theorem responseConnect_kept (e : Env) : Rel RespKept (responseConnect e) := by
  unfold responseConnect
  rel_walk <;> kept_leaf

theorem responseSwitch_kept : Rel RespKept responseSwitch := by
  unfold responseSwitch
  rel_walk <;> exact ⟨rfl, rfl, rfl, (by simp), rfl, rfl, rfl⟩

theorem responseContinue_kept (e : Env) : Rel RespKept (responseContinue e) := by
  unfold responseContinue
  rel_walk <;> kept_leaf

theorem responseExpect_kept (e : Env) : Rel RespKept (responseExpect e) := by
  unfold responseExpect
  rel_walk <;> kept_leaf

macro_rules | `(tactic| rel_known) => `(tactic| exact responseConnect_kept _)
macro_rules | `(tactic| rel_known) => `(tactic| exact responseSwitch_kept)
macro_rules | `(tactic| rel_known) => `(tactic| exact responseContinue_kept _)
macro_rules | `(tactic| rel_known) => `(tactic| exact responseExpect_kept _)

theorem responseInterim_kept (e : Env) (te cl : Option Header) :
    Rel RespKept (responseInterim e te cl) := by
  unfold responseInterim
  rel_walk

theorem responseNoBody_kept (e : Env) (te cl : Option Header) :
    Rel RespKept (responseNoBody e te cl) := by
  unfold responseNoBody
  rel_walk <;> kept_leaf

theorem responseChunked_kept (e : Env) (cl : Option Header) : Rel RespKept (responseChunked e cl) := by
  unfold responseChunked
  rel_walk <;> kept_leaf

theorem responseLength_kept (e : Env) (cl : Header) : Rel RespKept (responseLength e cl) := by
  unfold responseLength
  rel_walk <;> kept_leaf

theorem responseUntilClose_kept (e : Env) (b : Bool) : Rel RespKept (responseUntilClose e b) := by
  unfold responseUntilClose
  rel_walk <;> kept_leaf

macro_rules | `(tactic| rel_known) => `(tactic| exact responseInterim_kept _ _ _)
macro_rules | `(tactic| rel_known) => `(tactic| exact responseNoBody_kept _ _ _)
macro_rules | `(tactic| rel_known) => `(tactic| exact responseChunked_kept _ _)
macro_rules | `(tactic| rel_known) => `(tactic| exact responseLength_kept _ _)
macro_rules | `(tactic| rel_known) => `(tactic| exact responseUntilClose_kept _ _)

theorem responseFraming_kept (e : Env) (te cl : Option Header) :
    Rel RespKept (responseFraming e te cl) := by
  unfold responseFraming
  rel_walk

macro_rules | `(tactic| rel_known) => `(tactic| exact responseFraming_kept _ _ _)

theorem responseBody_kept (e : Env) (te cl : Option Header) : Rel RespKept (responseBody e te cl) := by
  unfold responseBody
  rel_walk

macro_rules | `(tactic| rel_known) => `(tactic| exact responseBody_kept _ _ _)

theorem responseDetermineRest_kept (e : Env) : Rel RespKept (responseDetermineRest e) := by
  unfold responseDetermineRest
  rel_walk

macro_rules | `(tactic| rel_known) => `(tactic| exact responseDetermineRest_kept _)

theorem responseBodyDetermine_kept (e : Env) : Rel RespKept (responseBodyDetermine e) := by
  unfold responseBodyDetermine
  rel_walk

theorem responseLineAsBody_kept (e : Env) (l : Bytes) : Rel RespKept (responseLineAsBody e l) := by
  unfold responseLineAsBody
  rel_walk <;> kept_leaf

macro_rules | `(tactic| rel_known) => `(tactic| exact responseLineAsBody_kept _ _)

theorem responseLineRead_kept (e : Env) (l : Bytes) : Rel RespKept (responseLineRead e l) := by
  unfold responseLineRead
  rel_walk <;> kept_leaf

macro_rules | `(tactic| rel_known) => `(tactic| exact responseLineRead_kept _ _)

theorem responseLineComplete_kept (e : Env) (l : Bytes) : Rel RespKept (responseLineComplete e l) := by
  unfold responseLineComplete
  rel_walk <;> kept_leaf

theorem responseTrailer_kept (e : Env) : Rel RespKept (responseTrailer e) := by
  unfold responseTrailer
  rel_walk <;> kept_leaf

macro_rules | `(tactic| rel_known) => `(tactic| exact responseTrailer_kept _)

theorem responseHeadersDone_kept (e : Env) : Rel RespKept (responseHeadersDone e) := by
  unfold responseHeadersDone
  rel_walk <;> kept_leaf

theorem responseWithoutRequest_kept (e : Env) (t : Tx) : Rel RespKept (responseWithoutRequest e t) := by
  unfold responseWithoutRequest
  rel_walk

macro_rules | `(tactic| rel_known) => `(tactic| exact responseWithoutRequest_kept _ _)

theorem responseIdle_kept (e : Env) : Rel RespKept (responseIdle e) := by
  unfold responseIdle
  rel_walk <;> kept_leaf

macro_rules | `(tactic| rel_known) => `(tactic| exact responseBodyDetermine_kept _)
macro_rules | `(tactic| rel_known) => `(tactic| exact responseLineComplete_kept _ _)
macro_rules | `(tactic| rel_known) => `(tactic| exact responseHeadersDone_kept _)
macro_rules | `(tactic| rel_known) => `(tactic| exact responseIdle_kept _)

/-! The state of the response side. -/

/-- The state of the response side is the same. -/
def RespSt (s s' : Conn) : Prop := s'.resp.state = s.resp.state

theorem RespSt.pre : Pre RespSt where
  refl _ := rfl
  trans h h' := Eq.trans h' h

theorem Rel.respSt {α : Type} {m : M α} (h : Rel Same m) : Rel RespSt m := fun s => by
  obtain ⟨_, _, h⟩ := h s
  show (m s).2.resp.state = _
  rw [h]

macro_rules | `(tactic| rel_pre) => `(tactic| exact RespSt.pre)
macro_rules | `(tactic| rel_known) => `(tactic| (refine Rel.respSt ?_; rel_known))

theorem requestNext_respSt (e : Env) : Rel RespSt (requestNext e) := fun _ => rfl
theorem responseNext_st (e : Env) : Rel RespSt (responseNext e) := fun _ => rfl
theorem responseConsume_st (n : Nat) : Rel RespSt (responseConsume n) := fun _ => rfl

macro_rules | `(tactic| rel_known) => `(tactic| exact requestNext_respSt _)
macro_rules | `(tactic| rel_known) => `(tactic| exact responseNext_st _)
macro_rules | `(tactic| rel_known) => `(tactic| exact responseConsume_st _)

theorem responseReceiverSendData_st (e : Env) : Rel RespSt (responseReceiverSendData e) := by
  unfold responseReceiverSendData
  rel_walk
  rfl

macro_rules | `(tactic| rel_known) => `(tactic| exact responseReceiverSendData_st _)

theorem responseReceiverFinalizeClear_st (e : Env) : Rel RespSt (responseReceiverFinalizeClear e) := by
  unfold responseReceiverFinalizeClear
  rel_walk <;> rfl

macro_rules | `(tactic| rel_known) => `(tactic| exact responseReceiverFinalizeClear_st _)

theorem responseSetReceiver_st (e : Env) : Rel RespSt (responseSetReceiver e) := by
  unfold responseSetReceiver
  rel_walk <;> rfl

macro_rules | `(tactic| rel_known) => `(tactic| exact responseSetReceiver_st _)

theorem responseHandleStateChange_st (e : Env) : Rel RespSt (responseHandleStateChange e) := by
  unfold responseHandleStateChange
  rel_walk <;> rfl

macro_rules | `(tactic| rel_known) => `(tactic| exact responseHandleStateChange_st _)

theorem stateResponseHeaders_st (e : Env) : Rel RespSt (stateResponseHeaders e) := by
  unfold stateResponseHeaders
  rel_walk

macro_rules | `(tactic| rel_known) => `(tactic| exact stateResponseHeaders_st _)

theorem stateResponseLine_st (e : Env) : Rel RespSt (stateResponseLine e) := by
  unfold stateResponseLine
  rel_walk

macro_rules | `(tactic| rel_known) => `(tactic| exact stateResponseLine_st _)

theorem unblockRequest_st : Rel RespSt unblockRequest := by
  unfold unblockRequest
  rel_walk <;> rfl

macro_rules | `(tactic| rel_known) => `(tactic| exact unblockRequest_st)

theorem responseExpect_st (e : Env) : Rel RespSt (responseExpect e) := by
  unfold responseExpect
  rel_walk
  rfl

macro_rules | `(tactic| rel_known) => `(tactic| exact responseExpect_st _)

theorem post.last_setResp {s : Conn} {f : Half → Half} {P : Conn → Prop}
    (h : ∀ s : Conn, P { s with resp := f s.resp }) :
    post (M.setResp f) s (fun r s' => r = .ok () → P s') := fun _ => h s

theorem stateResponseStart_state (e : Env) (s : Conn) :
    post (stateResponseStart e) s (fun r s' => r = .ok () →
      s'.resp.state = .bodyIdentityStreamClose ∨ s'.resp.state = .line) := by
  unfold stateResponseStart
  refine post.bind_any fun _ _ => post.bind_any fun _ _ => post.ite (fun _ => ?_) fun _ => ?_
  all_goals
    refine post.bind_any fun _ _ => post.bind_setResp ?_
    refine (Rel.post (R := RespSt) (by rel_known) _).mono fun r s' h _ => ?_
    rw [h]
    simp

theorem stateResponseComplete_state (e : Env) (s : Conn) :
    post (stateResponseComplete e) s (fun r s' => r = .ok () → s'.resp.state = .idle) := by
  unfold stateResponseComplete
  refine post.bind_any fun _ _ => post.bind_any fun _ _ => post.bind_any fun _ _ =>
    post.bind_any fun _ _ => post.bind_any fun _ _ => post.bind_any fun _ _ => ?_
  exact post.last_setResp fun _ => rfl

/-- The states that can follow `bodyDetermine`. -/
def AfterDetermine (st : State) : Prop :=
  st = .finalize ∨ st = .line ∨ st = .bodyChunkedLength ∨ st = .bodyIdentityClKnown ∨
    st = .bodyIdentityStreamClose

theorem responseConnect_state (e : Env) (s : Conn) :
    post (responseConnect e) s (fun r s' => (r = .ok true → s'.resp.state = .finalize)) := by
  unfold responseConnect
  refine post.bind_any fun _ _ => post.ite (fun _ => ?_) fun _ => by intro h; cases h
  refine post.ite (fun _ => ?_) fun _ => post.ite (fun _ => ?_) fun _ => ?_
  · refine post.bind_setResp ?_
    intro _
    rfl
  · refine post.bind_any fun _ _ => ?_
    intro h; cases h
  · refine post.bind_any fun _ _ => post.bind_any fun _ _ => ?_
    intro h; cases h

theorem responseInterim_state (e : Env) (te cl : Option Header) (s : Conn) :
    post (responseInterim e te cl) s (fun r s' => (r = .ok .headersOnly → s'.resp.state = .finalize) ∧
      (r = .ok .again → s'.resp.state = .line)) := by
  unfold responseInterim
  refine post.conj (post.bind_any fun t s1 => ?_) (post.bind_any fun t s1 => ?_)
  · refine post.ite (fun _ => ?_) fun _ => post.ite (fun _ => ?_) fun _ => ?_
    · refine post.bind_any fun _ _ => post.ite (fun _ => ?_) fun _ => by intro h; cases h
      refine post.bind ?_
      exact fun _ => rfl
    · refine post.ite (fun _ => by intro h; cases h) fun _ => ?_
      refine post.bind_any fun _ _ => ?_
      intro h; cases h
    · refine post.bind_any fun _ _ => ?_
      intro h; cases h
  · refine post.ite (fun _ => ?_) fun _ => post.ite (fun _ => ?_) fun _ => ?_
    · refine post.bind_any fun _ _ => post.ite (fun _ => ?_) fun _ => by intro h; cases h
      refine post.bind_any fun _ _ => ?_
      intro h; cases h
    · refine post.ite (fun _ => by intro h; cases h) fun _ => ?_
      unfold responseContinue
      refine post.bind (post.bind_setResp ?_)
      refine (Rel.post (R := RespSt) (by rel_known) _).mono fun r s' h => ?_
      cases r with
      | ok _ => exact fun _ => h
      | error _ => intro h; cases h
    · refine post.bind_any fun _ _ => ?_
      intro h; cases h

theorem responseFraming_state (e : Env) (te cl : Option Header) (s : Conn) :
    post (responseFraming e te cl) s (fun r s' => r = .ok () → AfterDetermine s'.resp.state) := by
  unfold responseFraming
  refine post.bind_any fun _ _ => post.bind_any fun _ _ => ?_
  refine post.ite (fun _ => ?_) fun _ => ?_
  · unfold responseChunked
    refine post.bind_any fun _ _ => ?_
    exact post.last_setResp fun _ => by simp [AfterDetermine]
  · split
    · unfold responseLength
      refine post.bind_any fun _ _ => post.bind_any fun _ _ => ?_
      split
      · intro h; cases h
      · exact post.last_setResp fun _ => by simp [AfterDetermine]
      · refine post.bind_setResp ?_
        refine (Rel.post (R := RespSt) (by rel_known) _).mono fun r s' h _ => ?_
        rw [h]
        simp [AfterDetermine]
    · unfold responseUntilClose
      refine post.ite (fun _ => by intro h; cases h) fun _ => ?_
      refine post.bind_any fun _ _ => ?_
      exact post.last_setResp fun _ => by simp [AfterDetermine]

theorem responseBody_state (e : Env) (te cl : Option Header) (s : Conn) :
    post (responseBody e te cl) s (fun r s' => r = .ok () → AfterDetermine s'.resp.state) := by
  unfold responseBody
  refine post.bind_any fun _ s1 => post.bind_state ?_
  have hlast : ∀ s2 : Conn, AfterDetermine s2.resp.state →
      post (stateResponseHeaders e) s2 (fun r s' => r = .ok () → AfterDetermine s'.resp.state) := by
    intro s2 h2
    refine (Rel.post (R := RespSt) (by rel_known) _).mono fun r s' h _ => ?_
    rw [h]; exact h2
  refine post.bind (post.when (fun _ => ?_) fun h => ?_)
  · refine (responseFraming_state e te cl s1).mono fun r s' h => ?_
    cases r with
    | ok _ => exact hlast s' (h rfl)
    | error _ => intro h; cases h
  · exact hlast s1 (.inl (by simpa using h))

theorem responseDetermineRest_state (e : Env) (s : Conn) :
    post (responseDetermineRest e) s (fun r s' => r = .ok () → AfterDetermine s'.resp.state) := by
  unfold responseDetermineRest
  refine post.bind_any fun t s1 => ?_
  dsimp only
  refine post.bind ((responseInterim_state e _ _ s1).mono fun r s' h => ?_)
  cases r with
  | error _ => intro h; cases h
  | ok i =>
    dsimp only
    cases i with
    | headersOnly =>
      refine (Rel.post (R := RespSt) (by rel_known) _).mono fun r s' h' _ => ?_
      rw [h', h.1 rfl]
      exact .inl rfl
    | again =>
      intro _
      show AfterDetermine s'.resp.state
      rw [h.2 rfl]
      exact .inr (.inl rfl)
    | body => exact responseBody_state e _ _ s'

theorem responseBodyDetermine_state (e : Env) (s : Conn) :
    post (responseBodyDetermine e) s (fun r s' => r = .ok () → AfterDetermine s'.resp.state) := by
  unfold responseBodyDetermine
  refine post.bind ((responseConnect_state e s).mono fun r s' h => ?_)
  cases r with
  | error _ => intro h; cases h
  | ok b =>
    dsimp only
    refine post.ite (fun hb => ?_) fun _ => responseDetermineRest_state e s'
    refine (Rel.post (R := RespSt) (by rel_known) _).mono fun r s'' h' _ => ?_
    rw [h', h (by rw [hb])]
    exact .inl rfl

theorem responseTrailer_state (e : Env) (s : Conn) :
    post (responseTrailer e) s (fun r s' => r = .ok () → s'.resp.state = .finalize) := by
  unfold responseTrailer
  refine post.bind_any fun _ _ => post.bind_any fun _ _ => post.bind_any fun _ _ => ?_
  exact post.last_setResp fun _ => rfl

theorem responseHeadersDone_state (e : Env) (s : Conn) :
    post (responseHeadersDone e) s
      (fun r s' => r = .ok () → s'.resp.state = .bodyDetermine ∨ s'.resp.state = .finalize) := by
  unfold responseHeadersDone
  refine post.bind_any fun _ _ => post.ite (fun _ => ?_) fun _ => ?_
  · exact post.last_setResp fun _ => .inl rfl
  · exact (responseTrailer_state e _).mono fun r s' h hr => .inr (h hr)

theorem responseIdle_state (e : Env) (s : Conn) :
    post (responseIdle e) s (fun r s' => r = .ok () → s.input.isEmpty = false ∧
      (s'.resp.state = .bodyIdentityStreamClose ∨ s'.resp.state = .line)) := by
  unfold responseIdle
  refine post.bind_state (post.ite (fun _ => by intro h; cases h) fun hne => ?_)
  refine post.bind_any fun _ _ => post.bind_any fun _ _ => post.bind_any fun _ _ => ?_
  exact (stateResponseStart_state e _).mono fun r s' h hr => ⟨by simpa using hne, h hr⟩

end Model

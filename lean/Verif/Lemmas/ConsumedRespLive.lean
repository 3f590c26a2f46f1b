/-
The counters of response bodies stay positive while a body is read; what a response call answers.
-/
import Verif.Lemmas.ConsumedLive
import Verif.Lemmas.ConsumedResp

namespace Model

open M Spec

/-! What keeps the pieces of a body positive. -/

/-- No piece of a body is awaited. -/
def RespCalm (s : Conn) : Prop := s.resp.state ≠ .bodyChunkedData ∧ s.resp.state ≠ .bodyIdentityClKnown

theorem RespCalm.live {s : Conn} (h : RespCalm s) : RespLive s := ⟨fun hs => absurd hs h.1, fun hs => absurd hs h.2⟩

/-- The response side stays calm. -/
def RespRest (s s' : Conn) : Prop := RespCalm s → RespCalm s'

theorem RespRest.pre : Pre RespRest where
  refl _ := id
  trans h h' := fun hs => h' (h hs)

theorem Rel.respRest {α : Type} {m : M α} (h : Rel RespSt m) : Rel RespRest m := fun s hs => by
  have h1 : (m s).2.resp.state = s.resp.state := h s
  unfold RespCalm at hs ⊢
  rw [h1]
  exact hs

macro_rules | `(tactic| rel_pre) => `(tactic| exact RespRest.pre)
macro_rules | `(tactic| rel_known) => `(tactic| (refine Rel.respRest ?_; rel_known))

theorem responseUnconsume_st (n : Nat) : Rel RespSt (responseUnconsume n) := fun _ => rfl

macro_rules | `(tactic| rel_known) => `(tactic| exact responseUnconsume_st _)

/-- Closes the primitive changes. -/
macro "respRest_leaf" : tactic => `(tactic| first
  | exact id
  | exact fun _ => ⟨nofun, nofun⟩
  | (intro _; split <;> exact ⟨nofun, nofun⟩))

theorem requestParserCheckWaiting_rest : Rel RespRest requestParserCheckWaiting := by
  unfold requestParserCheckWaiting
  rel_walk <;> respRest_leaf

macro_rules | `(tactic| rel_known) => `(tactic| exact requestParserCheckWaiting_rest)

theorem responseSwitch_rest : Rel RespRest responseSwitch := fun _ _ => ⟨nofun, nofun⟩

macro_rules | `(tactic| rel_known) => `(tactic| exact responseSwitch_rest)

theorem handleResponseAbsentLf_rest (e : Env) : Rel RespRest (handleResponseAbsentLf e) := by
  unfold handleResponseAbsentLf
  rel_walk <;> respRest_leaf

macro_rules | `(tactic| rel_known) => `(tactic| exact handleResponseAbsentLf_rest _)

theorem stateResponseStart_rest (e : Env) : Rel RespRest (stateResponseStart e) := by
  unfold stateResponseStart
  rel_walk <;> respRest_leaf

macro_rules | `(tactic| rel_known) => `(tactic| exact stateResponseStart_rest _)

theorem completeResponse_rest (e : Env) (t : Tx) : Rel RespRest (completeResponse e t) := by
  unfold completeResponse
  rel_walk <;> respRest_leaf

macro_rules | `(tactic| rel_known) => `(tactic| exact completeResponse_rest _ _)

theorem stateResponseComplete_rest (e : Env) : Rel RespRest (stateResponseComplete e) := by
  unfold stateResponseComplete
  rel_walk <;> respRest_leaf

macro_rules | `(tactic| rel_known) => `(tactic| exact stateResponseComplete_rest _)

theorem responseBodyChunkedDataEnd_rest (e : Env) : Rel RespRest (responseBodyChunkedDataEnd e) := by
  unfold responseBodyChunkedDataEnd
  rel_walk <;> respRest_leaf

macro_rules | `(tactic| rel_known) => `(tactic| exact responseBodyChunkedDataEnd_rest _)

theorem responseStreamData_rest (e : Env) : Rel RespRest (responseStreamData e) := by
  unfold responseStreamData
  rel_walk <;> respRest_leaf

macro_rules | `(tactic| rel_known) => `(tactic| exact responseStreamData_rest _)

theorem responseBodyIdentityStreamClose_rest (e : Env) : Rel RespRest (responseBodyIdentityStreamClose e) := by
  unfold responseBodyIdentityStreamClose
  rel_walk <;> respRest_leaf

macro_rules | `(tactic| rel_known) => `(tactic| exact responseBodyIdentityStreamClose_rest _)

theorem responseConnect_rest (e : Env) : Rel RespRest (responseConnect e) := by
  unfold responseConnect
  rel_walk <;> respRest_leaf

macro_rules | `(tactic| rel_known) => `(tactic| exact responseConnect_rest _)

theorem responseContinue_rest (e : Env) : Rel RespRest (responseContinue e) := by
  unfold responseContinue
  rel_walk <;> respRest_leaf

macro_rules | `(tactic| rel_known) => `(tactic| exact responseContinue_rest _)

theorem responseInterim_rest (e : Env) (te : Option Header) (cl : Option Header) : Rel RespRest (responseInterim e te cl) := by
  unfold responseInterim
  rel_walk <;> respRest_leaf

macro_rules | `(tactic| rel_known) => `(tactic| exact responseInterim_rest _ _ _)

theorem responseNoBody_rest (e : Env) (te : Option Header) (cl : Option Header) : Rel RespRest (responseNoBody e te cl) := by
  unfold responseNoBody
  rel_walk <;> respRest_leaf

macro_rules | `(tactic| rel_known) => `(tactic| exact responseNoBody_rest _ _ _)

theorem responseChunked_rest (e : Env) (cl : Option Header) : Rel RespRest (responseChunked e cl) := by
  unfold responseChunked
  rel_walk <;> respRest_leaf

macro_rules | `(tactic| rel_known) => `(tactic| exact responseChunked_rest _ _)

theorem responseUntilClose_rest (e : Env) (b : Bool) : Rel RespRest (responseUntilClose e b) := by
  unfold responseUntilClose
  rel_walk <;> respRest_leaf

macro_rules | `(tactic| rel_known) => `(tactic| exact responseUntilClose_rest _ _)

theorem responseLineAsBody_rest (e : Env) (l : Bytes) : Rel RespRest (responseLineAsBody e l) := by
  unfold responseLineAsBody
  rel_walk <;> respRest_leaf

macro_rules | `(tactic| rel_known) => `(tactic| exact responseLineAsBody_rest _ _)

theorem responseLineRead_rest (e : Env) (l : Bytes) : Rel RespRest (responseLineRead e l) := by
  unfold responseLineRead
  rel_walk <;> respRest_leaf

macro_rules | `(tactic| rel_known) => `(tactic| exact responseLineRead_rest _ _)

theorem responseLineComplete_rest (e : Env) (l : Bytes) : Rel RespRest (responseLineComplete e l) := by
  unfold responseLineComplete
  rel_walk <;> respRest_leaf

macro_rules | `(tactic| rel_known) => `(tactic| exact responseLineComplete_rest _ _)

theorem responseLine_rest (e : Env) : Rel RespRest (responseLine e) := by
  unfold responseLine
  rel_walk <;> respRest_leaf

macro_rules | `(tactic| rel_known) => `(tactic| exact responseLine_rest _)

theorem responseTrailer_rest (e : Env) : Rel RespRest (responseTrailer e) := by
  unfold responseTrailer
  rel_walk <;> respRest_leaf

macro_rules | `(tactic| rel_known) => `(tactic| exact responseTrailer_rest _)

theorem responseHeadersClosed_rest (e : Env) : Rel RespRest (responseHeadersClosed e) := by
  unfold responseHeadersClosed
  rel_walk <;> respRest_leaf

macro_rules | `(tactic| rel_known) => `(tactic| exact responseHeadersClosed_rest _)

theorem responseHeadersDone_rest (e : Env) : Rel RespRest (responseHeadersDone e) := by
  unfold responseHeadersDone
  rel_walk <;> respRest_leaf

macro_rules | `(tactic| rel_known) => `(tactic| exact responseHeadersDone_rest _)

theorem responseHeaders_rest (e : Env) : Rel RespRest (responseHeaders e) := by
  unfold responseHeaders
  rel_walk <;> respRest_leaf

macro_rules | `(tactic| rel_known) => `(tactic| exact responseHeaders_rest _)

theorem responseFinalizeLine_rest (e : Env) (w : Bytes) : Rel RespRest (responseFinalizeLine e w) := by
  unfold responseFinalizeLine
  rel_walk <;> respRest_leaf

macro_rules | `(tactic| rel_known) => `(tactic| exact responseFinalizeLine_rest _ _)

theorem responseFinalize_rest (e : Env) : Rel RespRest (responseFinalize e) := by
  unfold responseFinalize
  rel_walk <;> respRest_leaf

macro_rules | `(tactic| rel_known) => `(tactic| exact responseFinalize_rest _)

theorem responseWithoutRequest_rest (e : Env) (t : Tx) : Rel RespRest (responseWithoutRequest e t) := by
  unfold responseWithoutRequest
  rel_walk <;> respRest_leaf

macro_rules | `(tactic| rel_known) => `(tactic| exact responseWithoutRequest_rest _ _)

theorem responseIdle_rest (e : Env) : Rel RespRest (responseIdle e) := by
  unfold responseIdle
  rel_walk <;> respRest_leaf

macro_rules | `(tactic| rel_known) => `(tactic| exact responseIdle_rest _)

theorem RespLive.same {s s' : Conn} (h : RespLive s) (k : Same s s') : RespLive s' := by
  obtain ⟨_, _, rfl⟩ := k
  exact ⟨h.1, h.2⟩

/-- The response side keeps its state and its counters. -/
structure RespHeld (s s' : Conn) : Prop where
  state : s'.resp.state = s.resp.state
  chunk : s'.resp.chunkedLength = s.resp.chunkedLength
  body : s'.resp.bodyDataLeft = s.resp.bodyDataLeft

theorem RespHeld.pre : Pre RespHeld where
  refl _ := ⟨rfl, rfl, rfl⟩
  trans h h' := ⟨h'.1.trans h.1, h'.2.trans h.2, h'.3.trans h.3⟩

theorem Rel.respHeld {α : Type} {m : M α} (h : Rel Same m) : Rel RespHeld m := fun s => by
  obtain ⟨_, _, h⟩ := h s
  rw [h]
  exact ⟨rfl, rfl, rfl⟩

macro_rules | `(tactic| rel_pre) => `(tactic| exact RespHeld.pre)
macro_rules | `(tactic| rel_known) => `(tactic| (refine Rel.respHeld ?_; rel_known))

theorem RespLive.held {s s' : Conn} (h : RespLive s) (k : RespHeld s s') : RespLive s' :=
  ⟨fun hs => by rw [k.chunk]; exact h.1 (k.state.symm.trans hs), fun hs => by rw [k.body]; exact h.2 (k.state.symm.trans hs)⟩

theorem responseReceiverSendData_counters (e : Env) : Rel RespHeld (responseReceiverSendData e) := by
  unfold responseReceiverSendData
  rel_walk
  exact ⟨rfl, rfl, rfl⟩

macro_rules | `(tactic| rel_known) => `(tactic| exact responseReceiverSendData_counters _)

theorem responseReceiverFinalizeClear_counters (e : Env) : Rel RespHeld (responseReceiverFinalizeClear e) := by
  unfold responseReceiverFinalizeClear
  rel_walk <;> exact ⟨rfl, rfl, rfl⟩

macro_rules | `(tactic| rel_known) => `(tactic| exact responseReceiverFinalizeClear_counters _)

theorem responseSetReceiver_counters (e : Env) : Rel RespHeld (responseSetReceiver e) := by
  unfold responseSetReceiver
  rel_walk <;> exact ⟨rfl, rfl, rfl⟩

macro_rules | `(tactic| rel_known) => `(tactic| exact responseSetReceiver_counters _)

theorem responseHandleStateChange_counters (e : Env) : Rel RespHeld (responseHandleStateChange e) := by
  unfold responseHandleStateChange
  rel_walk <;> exact ⟨rfl, rfl, rfl⟩

theorem stateResponseHeaders_counters (e : Env) : Rel RespHeld (stateResponseHeaders e) := by
  unfold stateResponseHeaders
  rel_walk <;> exact ⟨rfl, rfl, rfl⟩

macro_rules | `(tactic| rel_known) => `(tactic| exact stateResponseHeaders_counters _)

theorem responseLength_live (e : Env) (s : Conn) (cl : Header) (h : RespCalm s) :
    post (responseLength e cl) s (fun _ s' => RespLive s') := by
  unfold responseLength
  refine post.bind_rel (R := RespRest) (by rel_known) (fun _ s1 k => ?_) fun _ s1 k => (k h).live
  have h1 := k h
  refine post.bind_setResp ?_
  split
  · exact ⟨fun hs => absurd hs h1.1, fun hs => absurd hs h1.2⟩
  · exact ⟨nofun, nofun⟩
  · rename_i n hn hne
    refine post.bind_setResp ?_
    refine (Rel.post (R := Same) (by rel_known) _).mono fun _ s' k => ?_
    refine RespLive.same ⟨fun h => ?_, fun _ => ⟨_, hne, Nat.pos_of_ne_zero hn⟩⟩ k
    cases h

theorem responseFraming_live (e : Env) (s : Conn) (te cl : Option Header) (h : RespCalm s) :
    post (responseFraming e te cl) s (fun _ s' => RespLive s') := by
  unfold responseFraming
  refine post.bind_rel (R := RespRest) (by rel_known) (fun _ s1 k => ?_) fun _ s1 k => (k h).live
  refine post.bind_rel (R := RespRest) (by rel_known) (fun _ s2 k2 => ?_) fun _ s2 k2 => (k2 (k h)).live
  have h2 := k2 (k h)
  refine post.ite (fun _ => ((responseChunked_rest e _).post s2).mono fun _ _ k => (k h2).live) fun _ => ?_
  split
  · exact responseLength_live e s2 _ h2
  · exact ((responseUntilClose_rest e _).post s2).mono fun _ _ k => (k h2).live

theorem responseBody_live (e : Env) (s : Conn) (te cl : Option Header) (h : RespCalm s) :
    post (responseBody e te cl) s (fun _ s' => RespLive s') := by
  unfold responseBody
  refine post.bind_rel (R := RespRest) (by rel_known) (fun _ s1 k => ?_) fun _ s1 k => (k h).live
  have h1 := k h
  refine post.bind_state ?_
  have hlast : ∀ s2, RespLive s2 → post (stateResponseHeaders e) s2 (fun _ s' => RespLive s') := fun s2 h2 =>
    ((stateResponseHeaders_counters e).post s2).mono fun _ _ k => h2.held k
  refine post.bind (post.when (fun _ => ?_) fun _ => hlast s1 h1.live)
  refine (responseFraming_live e s1 te cl h1).mono fun r s2 h2 => ?_
  cases r with
  | ok a => exact hlast s2 h2
  | error x => exact h2

theorem responseDetermineRest_live (e : Env) (s : Conn) (h : RespCalm s) :
    post (responseDetermineRest e) s (fun _ s' => RespLive s') := by
  unfold responseDetermineRest
  refine post.bind_rel (R := RespRest) (by rel_known) (fun _ s1 k => ?_) fun _ s1 k => (k h).live
  refine post.bind_rel (R := RespRest) (by rel_known) (fun _ s2 k2 => ?_) fun _ s2 k2 => (k2 (k h)).live
  have h2 := k2 (k h)
  split
  · exact ((stateResponseHeaders_counters e).post s2).mono fun _ _ k => h2.live.held k
  · exact h2.live
  · exact responseBody_live e s2 _ _ h2

theorem responseBodyDetermine_live (e : Env) (s : Conn) (h : RespCalm s) :
    post (responseBodyDetermine e) s (fun _ s' => RespLive s') := by
  unfold responseBodyDetermine
  refine post.bind_rel (R := RespRest) (by rel_known) (fun _ s1 k => ?_) fun _ s1 k => (k h).live
  have h1 := k h
  refine post.ite (fun _ => ?_) fun _ => responseDetermineRest_live e s1 h1
  exact ((stateResponseHeaders_counters e).post s1).mono fun _ _ k => h1.live.held k

theorem responseChunkLine_live (e : Env) (s : Conn) (l : Bytes) (h : RespCalm s) :
    post (responseChunkLine e l) s (fun _ s' => RespLive s') := by
  unfold responseChunkLine
  refine post.bind_state ?_
  refine post.bind_rel (R := RespRest) (by rel_known) (fun _ s1 k => ?_) fun _ s1 k => (k h).live
  have h1 := k h
  split
  · refine post.bind_unconsume' (post.bind_setResp ?_)
    refine (Rel.post (R := Same) (by rel_known) _).mono fun _ s' k => ?_
    refine RespLive.same ⟨fun h => ?_, fun h => ?_⟩ k <;> cases h
  · refine post.bind_setResp ?_
    split
    · exact ⟨fun hs => absurd hs h1.1, fun hs => absurd hs h1.2⟩
    · refine post.bind_setResp ?_
      refine (Rel.post (R := Same) (by rel_known) _).mono fun _ s' k => ?_
      refine RespLive.same ⟨fun h => ?_, fun h => ?_⟩ k <;> cases h
    · rename_i n hn
      exact ⟨fun _ => ⟨_, rfl, Nat.pos_of_ne_zero n⟩, nofun⟩

theorem responseChunkedLengthLoop_live (e : Env) (d : Bytes) (s : Conn) (h : RespCalm s) :
    post (responseChunkedLengthLoop e d) s (fun _ s' => RespLive s') := by
  induction hl : d.length using Nat.strongRecOn generalizing d s with
  | ind n ih =>
    unfold responseChunkedLengthLoop
    refine post.bind_rel (R := RespRest) (by rel_known) (fun _ s0 k0 => ?_) fun _ s1 k => (k h).live
    have h := k0 h
    split
    next remaining line hl2 =>
      have := takeTillIncl_shorter hl2
      refine post.bind_rel (R := RespRest) (by rel_known) (fun _ s1 k => ?_) fun _ s1 k => (k h).live
      refine post.bind_state ?_
      refine post.bind_rel (R := RespRest) (by rel_walk) (fun _ s2 k2 => ?_) fun _ s2 k2 => (k2 (k h)).live
      have h3 := k2 (k h)
      refine post.ite (fun _ => ?_) fun _ => responseChunkLine_live e s2 line h3
      refine post.bind_rel (R := RespRest) (by rel_known) (fun _ s4 k4 => ?_) fun _ s4 k4 => (k4 h3).live
      exact ih remaining.length (by omega) remaining s4 (k4 h3) rfl
    all_goals
      refine post.ite (fun _ => ((handleResponseAbsentLf_rest e).post s0).mono fun _ s' k => (k h).live) fun _ => ?_
      exact post.bind_modify ⟨nofun, nofun⟩

theorem responseBodyChunkedData_live (e : Env) (s : Conn) (h : RespLive s) (hs : s.resp.state = .bodyChunkedData) :
    post (responseBodyChunkedData e) s (fun _ s' => RespLive s') := by
  obtain ⟨m, hm, -⟩ := h.chunk hs
  unfold responseBodyChunkedData
  refine post.bind_state (post.ite (fun _ => h) fun _ => ?_)
  refine post.bind_rel (R := Same) (by rel_known) (fun _ s1 k1 => ?_) fun x s1 k1 => h.same k1
  refine post.bind_rel (R := Same) (by rel_known) (fun _ s2 k2 => ?_) fun x s2 k2 => (h.same k1).same k2
  obtain ⟨_, _, rfl⟩ := Same.pre.trans k1 k2
  refine post.bind_consume' (post.bind_setResp (post.bind_state (post.ite (fun _ => ?_) fun hne => ?_)))
  · exact ⟨nofun, nofun⟩
  · refine ⟨fun _ => ?_, fun hb => ?_⟩
    · dsimp only [responseConsume, M.modify] at hne ⊢
      dsimp only [M.fail, M.raise]
      rw [hm] at hne ⊢
      exact ⟨_, rfl, Nat.pos_of_ne_zero fun h0 => hne (congrArg some h0)⟩
    · exact absurd (hb.symm.trans hs) (by decide)

theorem responseBodyIdentityClKnown_live (e : Env) (s : Conn) (h : RespLive s) (hs : s.resp.state = .bodyIdentityClKnown) :
    post (responseBodyIdentityClKnown e) s (fun _ s' => RespLive s') := by
  obtain ⟨m, hm, -⟩ := h.body hs
  unfold responseBodyIdentityClKnown
  refine post.bind_state (post.ite (fun _ => ?_) fun _ => ?_)
  · refine post.bind_setResp ?_
    refine (Rel.post (R := Same) (by rel_known) _).mono fun _ s' k => ?_
    refine RespLive.same ⟨fun h => ?_, fun h => ?_⟩ k <;> cases h
  unfold responseIdentityOpen
  refine post.bind_state ?_
  rw [hm]
  refine post.ite (fun _ => h) fun _ => ?_
  refine post.bind_rel (R := Same) (by rel_known) (fun _ s1 k1 => ?_) fun x s1 k1 => h.same k1
  obtain ⟨_, _, rfl⟩ := k1
  refine post.bind_consume' (post.bind_setResp (post.ite (fun hne => ?_) fun _ => ?_))
  · exact ⟨fun hb => absurd (hb.symm.trans hs) (by decide), fun _ => ⟨_, rfl, hne⟩⟩
  · refine post.bind_setResp ?_
    refine (Rel.post (R := Same) (by rel_known) _).mono fun _ s' k => ?_
    refine RespLive.same ⟨fun h => ?_, fun h => ?_⟩ k <;> cases h

theorem handleResponseState_live (e : Env) (s : Conn) (h : RespLive s) :
    post (handleResponseState e) s (fun _ s' => RespLive s') := by
  have calm : ∀ {st}, s.resp.state = st → st ≠ .bodyChunkedData → st ≠ .bodyIdentityClKnown → RespCalm s := by
    intro st hst h1 h2
    exact ⟨by rw [hst]; exact h1, by rw [hst]; exact h2⟩
  unfold handleResponseState
  refine post.bind_state ?_
  split <;> rename_i hst
  · exact ((responseIdle_rest e).post s).mono fun _ _ k => (k (calm hst nofun nofun)).live
  · exact ((responseLine_rest e).post s).mono fun _ _ k => (k (calm hst nofun nofun)).live
  · exact ((responseHeaders_rest e).post s).mono fun _ _ k => (k (calm hst nofun nofun)).live
  · exact responseBodyDetermine_live e s (calm hst nofun nofun)
  · exact responseBodyChunkedData_live e s h hst
  · exact responseChunkedLengthLoop_live e _ s (calm hst nofun nofun)
  · exact ((responseBodyChunkedDataEnd_rest e).post s).mono fun _ _ k => (k (calm hst nofun nofun)).live
  · exact ((responseFinalize_rest e).post s).mono fun _ _ k => (k (calm hst nofun nofun)).live
  · exact ((responseBodyIdentityStreamClose_rest e).post s).mono fun _ _ k => (k (calm hst nofun nofun)).live
  · exact responseBodyIdentityClKnown_live e s h hst
  all_goals exact h

/-! A gap does not lead into a body that ends with the stream. -/

/-- The response side does not enter a body that ends with the stream. -/
def RespAway (s s' : Conn) : Prop := s.resp.state ≠ .bodyIdentityStreamClose → s'.resp.state ≠ .bodyIdentityStreamClose

theorem RespAway.pre : Pre RespAway where
  refl _ := id
  trans h h' := fun hs => h' (h hs)

theorem Rel.respAway {α : Type} {m : M α} (h : Rel RespSt m) : Rel RespAway m := fun s hs => by
  have h1 : (m s).2.resp.state = s.resp.state := h s
  rw [h1]
  exact hs

macro_rules | `(tactic| rel_pre) => `(tactic| exact RespAway.pre)
macro_rules | `(tactic| rel_known) => `(tactic| (refine Rel.respAway ?_; rel_known))

/-- Closes the primitive changes. -/
macro "away_leaf" : tactic => `(tactic| first | exact id | exact fun _ => nofun)

theorem requestParserCheckWaiting_away : Rel RespAway requestParserCheckWaiting := by
  unfold requestParserCheckWaiting
  rel_walk <;> away_leaf

macro_rules | `(tactic| rel_known) => `(tactic| exact requestParserCheckWaiting_away)

theorem completeResponse_away (e : Env) (t : Tx) : Rel RespAway (completeResponse e t) := by
  unfold completeResponse
  rel_walk <;> away_leaf

macro_rules | `(tactic| rel_known) => `(tactic| exact completeResponse_away _ _)

theorem stateResponseComplete_away (e : Env) : Rel RespAway (stateResponseComplete e) := by
  unfold stateResponseComplete
  rel_walk <;> away_leaf

theorem responseIdentityOpen_away (e : Env) : Rel RespAway (responseIdentityOpen e) := by
  unfold responseIdentityOpen
  rel_walk <;> away_leaf

macro_rules | `(tactic| rel_known) => `(tactic| exact responseIdentityOpen_away _)

theorem responseBodyIdentityClKnown_away (e : Env) : Rel RespAway (responseBodyIdentityClKnown e) := by
  unfold responseBodyIdentityClKnown
  rel_walk <;> away_leaf

/-- No gap in a body that ends with the stream. -/
def RespFirm (s : Conn) : Prop := s.input.isGap = true → s.resp.state ≠ .bodyIdentityStreamClose

theorem handleResponseState_firm (e : Env) (s : Conn) (h : RespFirm s)
    (hg : (s.input.isGap && !responseGapState s.resp.state) = false) :
    post (handleResponseState e) s (fun _ s' => RespFirm s') := by
  have hf := (handleResponseState_frame e).post s
  by_cases hi : s.input.isGap = true
  · have hst := h hi
    rw [hi] at hg
    have hst' : s.resp.state = .bodyIdentityClKnown ∨ s.resp.state = .finalize := by
      revert hg hst
      cases s.resp.state <;> decide
    rcases hst' with h1 | h1
    · unfold post
      rw [handleResponseState_bodyIdentityClKnown h1]
      exact fun _ => responseBodyIdentityClKnown_away e s hst
    · unfold post
      rw [handleResponseState_finalize h1]
      unfold responseFinalize
      rw [M.bind_state, if_pos hi]
      exact fun _ => stateResponseComplete_away e s hst
  · refine hf.mono fun _ s' k hi' => absurd ?_ hi
    unfold PData.isGap at hi' ⊢
    rw [← k.gap]
    exact hi'

/-! The loop. -/

/-- What a call leaves: pieces of a body are positive, and the answer tells whether the chunk is used up
(`F`: it is not a gap in a body that ends with the stream). -/
structure RespToldBy (F : Prop) (r : Except Err (Option StreamState)) (s' : Conn) : Prop where
  live : RespLive s'
  firm : F → RespFirm s'
  data : F → r = .ok (some .data) → s'.input.len = 0
  other : r = .ok (some .dataOther) → s'.input.len ≠ 0

theorem RespFirm.of {s s' : Conn} (h : RespFirm s) (hs : s'.resp.state = s.resp.state) (hg : s'.input.gapLen = s.input.gapLen) :
    RespFirm s' := by
  unfold RespFirm PData.isGap at *
  rw [hs, hg]
  exact h

theorem responseAfterStep_told (e : Env) (F : Prop) (s : Conn) (h : RespLive s) (hf : F → RespFirm s) (rc : Except Status Unit)
    (hs : F → ∀ st, rc = .error st → Wait st → s.input.len = 0) : post (responseAfterStep e rc) s (RespToldBy F) := by
  unfold responseAfterStep
  have hdata : (F → s.input.len = 0) →
      post (do let _ ← attempt (responseReceiverSendData e); responseReturn .data) s (RespToldBy F) := by
    intro h0
    refine post.bind_attempt
      (((responseReceiverSendData_counters e).post s).conj ((responseReceiverSendData_kept e).post s)) (fun x s' h1 h2 => ?_) fun s' k => ?_
    · have k : RespHeld s s' ∧ RespKept s s' := by
        cases x with
        | ok a => exact h1 a rfl
        | error x => exact h2 x rfl
      have hl := h.held k.1
      refine post.bind_setResp ⟨⟨hl.1, hl.2⟩, fun f => (hf f).of k.1.state k.2.gap, fun f _ => ?_, nofun⟩
      exact k.2.len.trans (h0 f)
    · exact ⟨h.held k.1, fun f => (hf f).of k.1.state k.2.gap, nofun, nofun⟩
  split
  · exact ⟨h, hf, nofun, nofun⟩
  · exact hdata fun f => hs f _ rfl (.inl rfl)
  · exact hdata fun f => hs f _ rfl (.inr rfl)
  · exact post.bind_setResp ⟨⟨h.1, h.2⟩, hf, nofun, nofun⟩
  · refine post.bind_state (post.ite (fun h0 => ?_) fun h0 => ?_)
    · exact post.bind_setResp ⟨⟨h.1, h.2⟩, hf, fun _ _ => len_isEmpty.1 h0, nofun⟩
    · exact post.bind_setResp ⟨⟨h.1, h.2⟩, hf, nofun, fun _ h1 => h0 (len_isEmpty.2 h1)⟩
  · exact post.bind_setResp ⟨⟨h.1, h.2⟩, hf, nofun, nofun⟩

theorem responseHandleStateChange_told {e : Env} (hd : Definite e) (s : Conn) :
    post (responseHandleStateChange e) s (fun r _ => ∀ st, r = .error (.status st) → ¬ Wait st) :=
  fun st hst => responseHandleStateChange_sure hd s st hst

theorem responseStepTail_told {e : Env} (hd : Definite e) (F : Prop) (s : Conn) (h : RespLive s) (hf : F → RespFirm s)
    (rc : Except Status Unit) (hs : F → ∀ st, rc = .error st → Wait st → s.input.len = 0) :
    post (responseStepTail e rc) s (RespToldBy F) := by
  unfold responseStepTail
  refine post.bind_state ?_
  split
  · refine post.ite (fun _ => ⟨h, hf, nofun, nofun⟩) fun _ => ?_
    refine post.bind_attempt
      ((((responseHandleStateChange_counters e).post s).conj ((responseHandleStateChange_kept e).post s)).conj
        (responseHandleStateChange_told hd s)) (fun x s' h1 h2 => ?_) fun s' k => ?_
    · have k : RespHeld s s' ∧ RespKept s s' := by
        cases x with
        | ok a => exact (h1 a rfl).1
        | error x => exact (h2 x rfl).1
      refine responseAfterStep_told e F s' (h.held k.1) (fun f => (hf f).of k.1.state k.2.gap) x fun _ st hst hw => ?_
      subst hst
      exact absurd hw ((h2 st rfl).2 st rfl)
    · exact ⟨h.held k.1.1, fun f => (hf f).of k.1.1.state k.1.2.gap, nofun, nofun⟩
  · exact responseAfterStep_told e F s h hf _ hs

theorem responseStep_told {e : Env} (hd : Definite e) (F : Prop) (s : Conn) (h : RespLive s) (hf : F → RespFirm s) :
    post (responseStep e) s (RespToldBy F) := by
  unfold responseStep
  refine post.bind_state (post.ite (fun _ => ⟨h, hf, nofun, nofun⟩) fun hg => ?_)
  have hg : (s.input.isGap && !responseGapState s.resp.state) = false := by simpa using hg
  have hall : post (handleResponseState e) s (fun r s' => RespLive s' ∧ (F → RespFirm s' ∧ Said r s')) := by
    refine ⟨handleResponseState_live e s h, fun f => ⟨handleResponseState_firm e s (hf f) hg, ?_⟩⟩
    exact handleResponseState_said hd s h (hf f)
  refine post.bind_attempt hall (fun x s' h1 h2 => ?_) fun s' k => ?_
  · have k : RespLive s' ∧ (F → RespFirm s') := by
      cases x with
      | ok a => exact ⟨(h1 a rfl).1, fun f => ((h1 a rfl).2 f).1⟩
      | error x => exact ⟨(h2 x rfl).1, fun f => ((h2 x rfl).2 f).1⟩
    refine responseStepTail_told hd F s' k.1 k.2 x fun f st hst hw => ?_
    subst hst
    exact ((h2 st rfl).2 f).2 st rfl hw
  · exact ⟨k.1, fun f => (k.2 f).1, nofun, nofun⟩

theorem responseLoop_told {e : Env} (hd : Definite e) (F : Prop) (n : Nat) (s : Conn) (h : RespLive s) (hf : F → RespFirm s) :
    post (responseLoop e n) s (RespToldBy F) := by
  induction n generalizing s with
  | zero => exact ⟨h, hf, nofun, nofun⟩
  | succ n ih =>
    unfold responseLoop
    refine post.bind ((responseStep_told hd F s h hf).mono fun r s1 hr => ?_)
    cases r with
    | error x => exact ⟨hr.live, hr.firm, nofun, nofun⟩
    | ok o =>
      cases o with
      | some st => exact ⟨hr.live, hr.firm, fun f h1 => hr.data f h1, fun h1 => hr.other h1⟩
      | none => exact ih s1 hr.live hr.firm

theorem responseNoteGap_told (e : Env) (F : Prop) (s : Conn) (h : RespLive s) (hf : F → RespFirm s) :
    post (responseNoteGap e) s (RespToldBy F) := by
  unfold responseNoteGap
  refine post.bind_attempt_rel (R := Same) (by rel_known) (fun x s1 k => ?_) fun s1 k => ?_
  · obtain ⟨_, _, rfl⟩ := k
    split
    · exact ⟨⟨h.1, h.2⟩, hf, nofun, nofun⟩
    · refine post.bind_state (post.ite (fun _ => ?_) fun _ => ?_)
      · exact post.bind_modify (post.bind_setResp ⟨⟨h.1, h.2⟩, hf, nofun, nofun⟩)
      · exact post.bind_modify ⟨⟨h.1, h.2⟩, hf, nofun, nofun⟩
  · obtain ⟨_, _, rfl⟩ := k
    exact ⟨⟨h.1, h.2⟩, hf, nofun, nofun⟩

theorem responseProcess_told {e : Env} (hd : Definite e) (F : Prop) (s : Conn) (h : RespLive s) (hf : F → RespFirm s) :
    post (responseProcess e) s (RespToldBy F) := by
  unfold responseProcess
  refine post.bind_state ?_
  have he : post (responseEarly e) s (RespToldBy F) := by
    unfold responseEarly
    exact post.bind_state (post.ite (fun _ => responseNoteGap_told e F s h hf) fun _ => ⟨h, hf, nofun, nofun⟩)
  refine post.bind (he.mono fun r s2 hr => ?_)
  cases r with
  | error x => exact ⟨hr.live, hr.firm, nofun, nofun⟩
  | ok o =>
    cases o with
    | some st => exact ⟨hr.live, hr.firm, fun f h1 => hr.data f h1, fun h1 => hr.other h1⟩
    | none => exact responseLoop_told hd F _ s2 hr.live hr.firm

/-- One call of `response_data`. -/
theorem responseData_told {e : Env} (hd : Definite e) (c : PData) (s : Conn) (h : RespLive s) :
    post (responseData e c) s (RespToldBy (c.isGap = true → s.resp.state ≠ .bodyIdentityStreamClose)) := by
  unfold post
  rw [responseData_eq]
  split
  · exact ⟨⟨h.1, h.2⟩, fun f => f, nofun, nofun⟩
  split
  · exact ⟨⟨h.1, h.2⟩, fun f => f, nofun, nofun⟩
  split
  · exact ⟨⟨h.1, h.2⟩, fun f => f, nofun, nofun⟩
  split
  · exact ⟨⟨h.1, h.2⟩, fun f => f, nofun, nofun⟩
  · exact responseProcess_told hd _ _ ⟨h.1, h.2⟩ fun f => f

end Model

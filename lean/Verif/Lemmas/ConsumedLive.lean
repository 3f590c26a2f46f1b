/-
The counters of request bodies stay positive while a body is read; what a request call answers.
-/
import Verif.Lemmas.ConsumedReq
namespace Model
open M Spec
/-! What keeps the pieces of a body positive. -/

/-- No piece of a body is awaited. -/
def ReqCalm (s : Conn) : Prop := s.req.state ≠ .bodyChunkedData ∧ s.req.state ≠ .bodyIdentity

theorem ReqCalm.live {s : Conn} (h : ReqCalm s) : ReqLive s := ⟨fun hs => absurd hs h.1, fun hs => absurd hs h.2⟩

/-- The state of the request side is the same, or it is calm. -/
def ReqRest (s s' : Conn) : Prop := ReqCalm s → ReqCalm s'

theorem ReqRest.pre : Pre ReqRest where
  refl _ := id
  trans h h' := fun hs => h' (h hs)

theorem Rel.reqRest {α : Type} {m : M α} (h : Rel ReqSt m) : Rel ReqRest m := fun s hs => by
  have h1 : (m s).2.req.state = s.req.state := h s
  unfold ReqCalm at hs ⊢
  rw [h1]
  exact hs

macro_rules | `(tactic| rel_pre) => `(tactic| exact ReqRest.pre)
macro_rules | `(tactic| rel_known) => `(tactic| (refine Rel.reqRest ?_; rel_known))

theorem requestUnconsume_st (n : Nat) : Rel ReqSt (requestUnconsume n) := fun _ => rfl

macro_rules | `(tactic| rel_known) => `(tactic| exact requestUnconsume_st _)

/-- Closes the primitive changes. -/
macro "rest_leaf" : tactic => `(tactic| first
  | exact id
  | exact fun _ => ⟨nofun, nofun⟩
  | (intro _; split <;> exact ⟨nofun, nofun⟩))

theorem handleRequestAbsentLf_rest (e : Env) : Rel ReqRest (handleRequestAbsentLf e) := by
  unfold handleRequestAbsentLf
  rel_walk <;> rest_leaf

macro_rules | `(tactic| rel_known) => `(tactic| exact handleRequestAbsentLf_rest _)

theorem stateRequestStart_rest (e : Env) : Rel ReqRest (stateRequestStart e) := by
  unfold stateRequestStart
  rel_walk <;> rest_leaf

macro_rules | `(tactic| rel_known) => `(tactic| exact stateRequestStart_rest _)

theorem stateRequestTrailer_rest (e : Env) : Rel ReqRest (stateRequestTrailer e) := by
  unfold stateRequestTrailer
  rel_walk <;> rest_leaf

macro_rules | `(tactic| rel_known) => `(tactic| exact stateRequestTrailer_rest _)

theorem stateRequestHeadersDone_rest (e : Env) : Rel ReqRest (stateRequestHeadersDone e) := by
  unfold stateRequestHeadersDone
  rel_walk <;> rest_leaf

macro_rules | `(tactic| rel_known) => `(tactic| exact stateRequestHeadersDone_rest _)

theorem stateRequestHeaders_rest (e : Env) : Rel ReqRest (stateRequestHeaders e) := by
  unfold stateRequestHeaders
  rel_walk <;> rest_leaf

macro_rules | `(tactic| rel_known) => `(tactic| exact stateRequestHeaders_rest _)

theorem stateRequestLine_rest (e : Env) : Rel ReqRest (stateRequestLine e) := by
  unfold stateRequestLine
  rel_walk <;> rest_leaf

macro_rules | `(tactic| rel_known) => `(tactic| exact stateRequestLine_rest _)

theorem completeRequest_rest (e : Env) (t : Tx) : Rel ReqRest (completeRequest e t) := by
  unfold completeRequest
  rel_walk <;> rest_leaf

macro_rules | `(tactic| rel_known) => `(tactic| exact completeRequest_rest _ _)

theorem stateRequestComplete_rest (e : Env) : Rel ReqRest (stateRequestComplete e) := by
  unfold stateRequestComplete
  rel_walk <;> rest_leaf

macro_rules | `(tactic| rel_known) => `(tactic| exact stateRequestComplete_rest _)

theorem requestConnectCheck_rest (e : Env) : Rel ReqRest (requestConnectCheck e) := by
  unfold requestConnectCheck
  rel_walk <;> rest_leaf

macro_rules | `(tactic| rel_known) => `(tactic| exact requestConnectCheck_rest _)

theorem requestConnectProbeData_rest (e : Env) : Rel ReqRest (requestConnectProbeData e) := by
  unfold requestConnectProbeData
  rel_walk <;> rest_leaf

macro_rules | `(tactic| rel_known) => `(tactic| exact requestConnectProbeData_rest _)

theorem requestConnectWaitResponse_rest (e : Env) : Rel ReqRest (requestConnectWaitResponse e) := by
  unfold requestConnectWaitResponse
  rel_walk <;> rest_leaf

macro_rules | `(tactic| rel_known) => `(tactic| exact requestConnectWaitResponse_rest _)

theorem requestBodyChunkedDataEnd_rest (e : Env) : Rel ReqRest (requestBodyChunkedDataEnd e) := by
  unfold requestBodyChunkedDataEnd
  rel_walk <;> rest_leaf

macro_rules | `(tactic| rel_known) => `(tactic| exact requestBodyChunkedDataEnd_rest _)

theorem requestHeadersClosed_rest (e : Env) : Rel ReqRest (requestHeadersClosed e) := by
  unfold requestHeadersClosed
  rel_walk <;> rest_leaf

macro_rules | `(tactic| rel_known) => `(tactic| exact requestHeadersClosed_rest _)

theorem requestHeaders_rest (e : Env) : Rel ReqRest (requestHeaders e) := by
  unfold requestHeaders
  rel_walk <;> rest_leaf

macro_rules | `(tactic| rel_known) => `(tactic| exact requestHeaders_rest _)

theorem requestProtocol_rest (e : Env) : Rel ReqRest (requestProtocol e) := by
  unfold requestProtocol
  rel_walk <;> rest_leaf

macro_rules | `(tactic| rel_known) => `(tactic| exact requestProtocol_rest _)

theorem requestLineComplete_rest (e : Env) (l : Bytes) : Rel ReqRest (requestLineComplete e l) := by
  unfold requestLineComplete
  rel_walk <;> rest_leaf

macro_rules | `(tactic| rel_known) => `(tactic| exact requestLineComplete_rest _ _)

theorem requestLine_rest (e : Env) : Rel ReqRest (requestLine e) := by
  unfold requestLine
  rel_walk <;> rest_leaf

macro_rules | `(tactic| rel_known) => `(tactic| exact requestLine_rest _)

theorem requestFinalizeLine_rest (e : Env) (l : Bytes) : Rel ReqRest (requestFinalizeLine e l) := by
  unfold requestFinalizeLine
  rel_walk <;> rest_leaf

macro_rules | `(tactic| rel_known) => `(tactic| exact requestFinalizeLine_rest _ _)

theorem requestFinalize_rest (e : Env) : Rel ReqRest (requestFinalize e) := by
  unfold requestFinalize
  rel_walk <;> rest_leaf

macro_rules | `(tactic| rel_known) => `(tactic| exact requestFinalize_rest _)

theorem requestReset_rest : Rel ReqRest requestReset := by
  unfold requestReset
  rel_walk <;> rest_leaf

macro_rules | `(tactic| rel_known) => `(tactic| exact requestReset_rest)

theorem requestIgnoreDataAfterHttp09_rest : Rel ReqRest requestIgnoreDataAfterHttp09 := by
  unfold requestIgnoreDataAfterHttp09
  rel_walk <;> rest_leaf

theorem requestIdle_rest (e : Env) : Rel ReqRest (requestIdle e) := by
  unfold requestIdle
  rel_walk <;> rest_leaf

macro_rules | `(tactic| rel_known) => `(tactic| exact requestIdle_rest _)

theorem ReqLive.same {s s' : Conn} (h : ReqLive s) (k : Same s s') : ReqLive s' := by
  obtain ⟨_, _, rfl⟩ := k
  exact ⟨h.1, h.2⟩

theorem requestBodyDetermine_live (e : Env) (s : Conn) (h : ReqCalm s) :
    post (requestBodyDetermine e) s (fun _ s' => ReqLive s') := by
  unfold requestBodyDetermine
  refine post.bind_rel (R := ReqRest) (by rel_known) (fun t s1 k => ?_) fun _ s1 k => (k h).live
  have h1 := k h
  split
  · exact post.bind_rel (R := ReqRest) (by rel_known) (fun _ s2 _ => ⟨nofun, nofun⟩) fun _ s2 k2 => (k2 h1).live
  · refine post.ite (fun hc => ?_) fun _ => ⟨nofun, nofun⟩
    refine post.bind_rel (R := ReqRest) (by rel_known) (fun _ s2 _ => ⟨nofun, fun _ => ?_⟩) fun _ s2 k2 => (k2 h1).live
    cases hl : t.requestContentLength with
    | none => rw [hl] at hc; cases hc
    | some n => rw [hl] at hc; exact ⟨n, rfl, hc⟩
  · exact ⟨nofun, nofun⟩
  · exact h1.live

theorem requestChunkLine_live (e : Env) (s : Conn) (l : Bytes) (h : ReqCalm s) :
    post (requestChunkLine e l) s (fun _ s' => ReqLive s') := by
  unfold requestChunkLine
  refine post.bind_state ?_
  refine post.bind_rel (R := ReqRest) (by rel_known) (fun _ s1 k => ?_) fun _ s1 k => (k h).live
  have h1 := k h
  split
  · exact h1.live
  · refine post.bind_setReq ?_
    split
    · exact ⟨fun hs => absurd hs h1.1, fun hs => absurd hs h1.2⟩
    · refine post.bind_setReq ?_
      refine (Rel.post (R := Same) (by rel_known) _).mono fun _ s' k => ?_
      refine ReqLive.same ⟨fun h => ?_, fun h => ?_⟩ k <;> cases h
    · rename_i n hn
      exact ⟨fun _ => ⟨_, rfl, Nat.pos_of_ne_zero n⟩, nofun⟩

theorem requestChunkedLengthLoop_live (e : Env) (d : Bytes) (s : Conn) (h : ReqCalm s) :
    post (requestChunkedLengthLoop e d) s (fun _ s' => ReqLive s') := by
  induction hl : d.length using Nat.strongRecOn generalizing d s with
  | ind n ih =>
    unfold requestChunkedLengthLoop
    split
    next remaining line hl2 =>
      have := takeTillIncl_shorter hl2
      refine post.bind_rel (R := ReqRest) (by rel_known) (fun _ s1 k => ?_) fun _ s1 k => (k h).live
      refine post.bind_state ?_
      refine post.bind_rel (R := ReqRest) (by rel_walk) (fun _ s2 k2 => ?_) fun _ s2 k2 => (k2 (k h)).live
      refine post.bind_rel (R := ReqRest) (by rel_known) (fun _ s3 k3 => ?_) fun _ s3 k3 => (k3 (k2 (k h))).live
      have h3 := k3 (k2 (k h))
      refine post.ite (fun _ => ?_) fun _ => requestChunkLine_live e s3 line h3
      refine post.bind_rel (R := ReqRest) (by rel_known) (fun _ s4 k4 => ?_) fun _ s4 k4 => (k4 h3).live
      exact ih remaining.length (by omega) remaining s4 (k4 h3) rfl
    all_goals
      exact post.ite (fun _ => ((handleRequestAbsentLf_rest e).post s).mono fun _ s' k => (k h).live) fun _ => h.live

theorem requestBodyChunkedData_live (e : Env) (s : Conn) (h : ReqLive s) (hs : s.req.state = .bodyChunkedData) :
    post (requestBodyChunkedData e) s (fun _ s' => ReqLive s') := by
  obtain ⟨m, hm, -⟩ := h.chunk hs
  unfold requestBodyChunkedData
  refine post.bind_state (post.ite (fun _ => h) fun _ => ?_)
  refine post.bind_rel (R := Same) (by rel_known) (fun _ s1 k1 => ?_) fun x s1 k1 => h.same k1
  refine post.bind_rel (R := Same) (by rel_known) (fun _ s2 k2 => ?_) fun x s2 k2 => (h.same k1).same k2
  obtain ⟨_, _, rfl⟩ := Same.pre.trans k1 k2
  refine post.bind_consume (post.bind_setReq (post.bind_state (post.ite (fun _ => ?_) fun hne => ?_)))
  · exact ⟨nofun, nofun⟩
  · refine ⟨fun _ => ?_, fun hb => ?_⟩
    · dsimp only [requestConsume, M.modify] at hne ⊢
      dsimp only [M.fail, M.raise]
      rw [hm] at hne ⊢
      exact ⟨_, rfl, Nat.pos_of_ne_zero fun h0 => hne (congrArg some h0)⟩
    · exact absurd (hb.symm.trans hs) (by decide)

theorem requestBodyIdentity_live (e : Env) (s : Conn) (h : ReqLive s) (hs : s.req.state = .bodyIdentity) :
    post (requestBodyIdentity e) s (fun _ s' => ReqLive s') := by
  obtain ⟨m, hm, -⟩ := h.body hs
  unfold requestBodyIdentity
  refine post.bind_state ?_
  rw [hm]
  refine post.ite (fun _ => h) fun _ => ?_
  refine post.bind_rel (R := Same) (by rel_known) (fun _ s1 k1 => ?_) fun x s1 k1 => h.same k1
  obtain ⟨_, _, rfl⟩ := k1
  refine post.bind_consume (post.bind_setReq (post.ite (fun hne => ?_) fun _ => ?_))
  · exact ⟨fun hb => absurd (hb.symm.trans hs) (by decide), fun _ => ⟨_, rfl, hne⟩⟩
  · refine post.bind_setReq ?_
    refine (Rel.post (R := Same) (by rel_known) _).mono fun _ s' k => ?_
    refine ReqLive.same ⟨fun h => ?_, fun h => ?_⟩ k <;> cases h

theorem handleRequestState_live (e : Env) (s : Conn) (h : ReqLive s) :
    post (handleRequestState e) s (fun _ s' => ReqLive s') := by
  have calm : ∀ {st}, s.req.state = st → st ≠ .bodyChunkedData → st ≠ .bodyIdentity → ReqCalm s := by
    intro st hst h1 h2
    exact ⟨by rw [hst]; exact h1, by rw [hst]; exact h2⟩
  unfold handleRequestState
  refine post.bind_state ?_
  split <;> rename_i hst
  · exact ((requestIdle_rest e).post s).mono fun _ _ k => (k (calm hst nofun nofun)).live
  · exact (requestIgnoreDataAfterHttp09_rest.post s).mono fun _ _ k => (k (calm hst nofun nofun)).live
  · exact ((requestLine_rest e).post s).mono fun _ _ k => (k (calm hst nofun nofun)).live
  · exact ((requestProtocol_rest e).post s).mono fun _ _ k => (k (calm hst nofun nofun)).live
  · exact ((requestHeaders_rest e).post s).mono fun _ _ k => (k (calm hst nofun nofun)).live
  · exact ((requestConnectWaitResponse_rest e).post s).mono fun _ _ k => (k (calm hst nofun nofun)).live
  · exact ((requestConnectCheck_rest e).post s).mono fun _ _ k => (k (calm hst nofun nofun)).live
  · exact ((requestConnectProbeData_rest e).post s).mono fun _ _ k => (k (calm hst nofun nofun)).live
  · exact requestBodyDetermine_live e s (calm hst nofun nofun)
  · exact requestBodyChunkedData_live e s h hst
  · exact requestChunkedLengthLoop_live e _ s (calm hst nofun nofun)
  · exact ((requestBodyChunkedDataEnd_rest e).post s).mono fun _ _ k => (k (calm hst nofun nofun)).live
  · exact requestBodyIdentity_live e s h hst
  · exact ((requestFinalize_rest e).post s).mono fun _ _ k => (k (calm hst nofun nofun)).live
  all_goals exact h

/-! The loop. -/

/-- What a call leaves: pieces of a body are positive, and the answer tells whether the chunk is used up. -/
structure ReqToldBy (r : Except Err (Option StreamState)) (s' : Conn) : Prop where
  live : ReqLive s'
  data : r = .ok (some .data) → s'.input.len = 0
  other : r = .ok (some .dataOther) → s'.input.len ≠ 0

/-- The request side keeps its state and its counters. -/
structure ReqHeld (s s' : Conn) : Prop where
  state : s'.req.state = s.req.state
  chunk : s'.req.chunkedLength = s.req.chunkedLength
  body : s'.req.bodyDataLeft = s.req.bodyDataLeft

theorem ReqHeld.pre : Pre ReqHeld where
  refl _ := ⟨rfl, rfl, rfl⟩
  trans h h' := ⟨h'.1.trans h.1, h'.2.trans h.2, h'.3.trans h.3⟩

theorem Rel.reqHeld {α : Type} {m : M α} (h : Rel Same m) : Rel ReqHeld m := fun s => by
  obtain ⟨_, _, h⟩ := h s
  rw [h]
  exact ⟨rfl, rfl, rfl⟩

macro_rules | `(tactic| rel_pre) => `(tactic| exact ReqHeld.pre)
macro_rules | `(tactic| rel_known) => `(tactic| (refine Rel.reqHeld ?_; rel_known))

theorem ReqLive.held {s s' : Conn} (h : ReqLive s) (k : ReqHeld s s') : ReqLive s' :=
  ⟨fun hs => by rw [k.chunk]; exact h.1 (k.state.symm.trans hs), fun hs => by rw [k.body]; exact h.2 (k.state.symm.trans hs)⟩

theorem requestReceiverSendData_counters (e : Env) : Rel ReqHeld (requestReceiverSendData e) := by
  unfold requestReceiverSendData
  rel_walk
  exact ⟨rfl, rfl, rfl⟩

macro_rules | `(tactic| rel_known) => `(tactic| exact requestReceiverSendData_counters _)

theorem requestSetReceiver_counters (e : Env) : Rel ReqHeld (requestSetReceiver e) := by
  unfold requestSetReceiver
  rel_walk <;> exact ⟨rfl, rfl, rfl⟩

macro_rules | `(tactic| rel_known) => `(tactic| exact requestSetReceiver_counters _)

theorem requestHandleStateChange_counters (e : Env) : Rel ReqHeld (requestHandleStateChange e) := by
  unfold requestHandleStateChange
  rel_walk <;> exact ⟨rfl, rfl, rfl⟩

theorem len_isEmpty {d : PData} : d.isEmpty = true ↔ d.len = 0 := by
  unfold PData.isEmpty
  simp

theorem requestAfterStep_told (e : Env) (s : Conn) (h : ReqLive s) (rc : Except Status Unit)
    (hs : ∀ st, rc = .error st → Wait st → s.input.len = 0) : post (requestAfterStep e rc) s ReqToldBy := by
  unfold requestAfterStep
  have hdata : s.input.len = 0 → post (do let _ ← attempt (requestReceiverSendData e); requestReturn .data) s ReqToldBy := by
    intro h0
    refine post.bind_attempt
      (((requestReceiverSendData_counters e).post s).conj ((requestReceiverSendData_kept e).post s)) (fun x s' h1 h2 => ?_) fun s' k => ?_
    · have k : ReqHeld s s' ∧ ReqKept s s' := by
        cases x with
        | ok a => exact h1 a rfl
        | error x => exact h2 x rfl
      have hl := h.held k.1
      refine post.bind_setReq ⟨⟨hl.1, hl.2⟩, fun _ => ?_, nofun⟩
      exact k.2.len.trans h0
    · exact ⟨h.held k.1, nofun, nofun⟩
  split
  · exact ⟨h, nofun, nofun⟩
  · exact hdata (hs _ rfl (.inl rfl))
  · exact hdata (hs _ rfl (.inr rfl))
  · refine post.bind_state (post.ite (fun h0 => ?_) fun h0 => ?_)
    · exact post.bind_setReq ⟨⟨h.1, h.2⟩, fun _ => len_isEmpty.1 h0, nofun⟩
    · exact post.bind_setReq ⟨⟨h.1, h.2⟩, nofun, fun _ h1 => h0 (len_isEmpty.2 h1)⟩
  · exact post.bind_setReq ⟨⟨h.1, h.2⟩, nofun, nofun⟩
  · exact post.bind_setReq ⟨⟨h.1, h.2⟩, nofun, nofun⟩

theorem requestHandleStateChange_told {e : Env} (hd : Definite e) (s : Conn) :
    post (requestHandleStateChange e) s (fun r _ => ∀ st, r = .error (.status st) → ¬ Wait st) :=
  fun st hst => requestHandleStateChange_sure hd s st hst

theorem requestStepTail_told {e : Env} (hd : Definite e) (s : Conn) (h : ReqLive s) (rc : Except Status Unit)
    (hs : ∀ st, rc = .error st → Wait st → s.input.len = 0) : post (requestStepTail e rc) s ReqToldBy := by
  unfold requestStepTail
  refine post.bind_state ?_
  split
  · refine post.ite (fun _ => ⟨h, nofun, nofun⟩) fun _ => ?_
    refine post.bind_attempt
      (((requestHandleStateChange_counters e).post s).conj (requestHandleStateChange_told hd s)) (fun x s' h1 h2 => ?_) fun s' k => ?_
    · refine requestAfterStep_told e s' ?_ x fun st hst hw => ?_
      · cases x with
        | ok a => exact h.held (h1 a rfl).1
        | error x => exact h.held (h2 x rfl).1
      · subst hst
        exact absurd hw ((h2 st rfl).2 st rfl)
    · exact ⟨h.held k.1, nofun, nofun⟩
  · exact requestAfterStep_told e s h _ hs

theorem requestStep_told {e : Env} (hd : Definite e) (s : Conn) (h : ReqLive s) : post (requestStep e) s ReqToldBy := by
  unfold requestStep
  refine post.bind_state (post.ite (fun _ => ⟨h, nofun, nofun⟩) fun hg => ?_)
  have hg : (s.input.isGap && !requestGapState s.req.state) = false := by simpa using hg
  refine post.bind_attempt ((handleRequestState_live e s h).conj (handleRequestState_said hd s h hg)) (fun x s' h1 h2 => ?_) fun s' k => ?_
  · refine requestStepTail_told hd s' ?_ x fun st hst hw => ?_
    · cases x with
      | ok a => exact (h1 a rfl).1
      | error x => exact (h2 x rfl).1
    · subst hst
      exact (h2 st rfl).2 st rfl hw
  · exact ⟨k.1, nofun, nofun⟩

theorem requestLoop_told {e : Env} (hd : Definite e) (n : Nat) (s : Conn) (h : ReqLive s) : post (requestLoop e n) s ReqToldBy := by
  induction n generalizing s with
  | zero => exact ⟨h, nofun, nofun⟩
  | succ n ih =>
    unfold requestLoop
    refine post.bind ((requestStep_told hd s h).mono fun r s1 hr => ?_)
    cases r with
    | error x => exact ⟨hr.live, nofun, nofun⟩
    | ok o =>
      cases o with
      | some st => exact ⟨hr.live, fun h1 => hr.data h1, fun h1 => hr.other h1⟩
      | none => exact ih s1 hr.live

theorem requestNoteGap_told (e : Env) (s : Conn) (h : ReqLive s) : post (requestNoteGap e) s ReqToldBy := by
  unfold requestNoteGap
  refine post.bind_attempt_rel (R := Same) (by rel_known) (fun x s1 k => ?_) fun s1 k => ⟨h.same k, nofun, nofun⟩
  have h1 := h.same k
  split
  · exact ⟨h1, nofun, nofun⟩
  · refine post.bind_state (post.ite (fun _ => ?_) fun _ => ?_)
    · exact post.bind_modify (post.bind_setReq ⟨⟨h1.1, h1.2⟩, nofun, nofun⟩)
    · exact post.bind_modify ⟨⟨h1.1, h1.2⟩, nofun, nofun⟩

theorem requestProcess_told {e : Env} (hd : Definite e) (s : Conn) (h : ReqLive s) : post (requestProcess e) s ReqToldBy := by
  unfold requestProcess
  refine post.bind_modify (post.bind_state ?_)
  generalize requestRounds _ = n
  have he : post (requestEarly e) { s with resp := if s.resp.status = .dataOther then { s.resp with status := .data } else s.resp } ReqToldBy := by
    unfold requestEarly
    refine post.bind_state (post.ite (fun _ => requestNoteGap_told e _ ⟨h.1, h.2⟩) fun _ => ⟨⟨h.1, h.2⟩, nofun, nofun⟩)
  refine post.bind (he.mono fun r s2 hr => ?_)
  cases r with
  | error x => exact ⟨hr.live, nofun, nofun⟩
  | ok o =>
    cases o with
    | some st => exact ⟨hr.live, fun h1 => hr.data h1, fun h1 => hr.other h1⟩
    | none => exact requestLoop_told hd n s2 hr.live

/-- One call of `request_data`. -/
theorem requestData_told {e : Env} (hd : Definite e) (c : PData) (s : Conn) (h : ReqLive s) :
    post (requestData e c) s ReqToldBy := by
  unfold post
  rw [requestData_eq]
  split
  · exact ⟨⟨h.1, h.2⟩, nofun, nofun⟩
  split
  · exact ⟨⟨h.1, h.2⟩, nofun, nofun⟩
  split
  · exact ⟨⟨h.1, h.2⟩, nofun, nofun⟩
  split
  · exact ⟨⟨h.1, h.2⟩, nofun, nofun⟩
  · exact requestProcess_told hd _ ⟨h.1, h.2⟩

end Model

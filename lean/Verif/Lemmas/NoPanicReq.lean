/-
The request state machine does not panic.
-/
import Verif.Lemmas.NoPanic
import Verif.Lemmas.ConnReqStep
import Verif.Model.Connection

namespace Model

open M

section
variable {P : Conn → Prop}

theorem requestReceiverSendData_calm (e : Env) (hP : Lasting P) : Calm P P (requestReceiverSendData e) := by
  unfold requestReceiverSendData
  refine Calm.bind_read fun _ => Calm.bind (Calm.modify hP fun _ => rfl) (fun _ => ?_) fun _ h => h
  refine Calm.bind (Calm.requestTx hP) (fun _ => ?_) fun _ h => h
  calm_walk

macro_rules | `(tactic| calm_known) => `(tactic| exact requestReceiverSendData_calm _ (by lasting))

theorem requestReceiverFinalizeClear_calm (e : Env) (hP : Lasting P) : Calm P P (requestReceiverFinalizeClear e) := by
  unfold requestReceiverFinalizeClear
  refine Calm.bind_read fun _ => ?_
  split
  · calm_walk
  · refine Calm.bind (Calm.attempt (requestReceiverSendData_calm e hP)) (fun _ => ?_) fun _ h => h
    exact Calm.bind (Calm.setReq hP) (fun _ => Calm.ofStatus fun _ h => h) fun _ h => h

macro_rules | `(tactic| calm_known) => `(tactic| exact requestReceiverFinalizeClear_calm _ (by lasting))

theorem handleRequestAbsentLf_calm (e : Env) (hP : Lasting P) : Calm P P (handleRequestAbsentLf e) := by
  unfold handleRequestAbsentLf
  refine Calm.bind_read fun _ => Calm.bind Calm.checkRequestBufferLimit (fun _ => ?_) fun _ h => h
  refine Calm.bind (Calm.setReq hP) (fun _ => Calm.bind (Calm.requestConsume hP) (fun _ => ?_) fun _ h => h) fun _ h => h
  calm_walk

macro_rules | `(tactic| calm_known) => `(tactic| exact handleRequestAbsentLf_calm _ (by lasting))

theorem finalizeTx_calm (e : Env) (i : Nat) (hP : Lasting P) : Calm P P (finalizeTx e i) := by
  unfold finalizeTx
  calm_walk

macro_rules | `(tactic| calm_known) => `(tactic| exact finalizeTx_calm _ _ (by lasting))

end

theorem requestSetReceiver_calm (e : Env) : Calm HasReq HasReq (requestSetReceiver e) := by
  unfold requestSetReceiver
  calm_walk

theorem requestRunHookBodyData_calm (e : Env) (d : PData) : Calm HasReq HasReq (requestRunHookBodyData e d) := by
  unfold requestRunHookBodyData
  calm_walk

macro_rules | `(tactic| calm_known) => `(tactic| exact requestRunHookBodyData_calm _ _)

theorem requestDecompressorCallback_calm (e : Env) (o : Option Bytes) :
    Calm HasReq HasReq (requestDecompressorCallback e o) := by
  unfold requestDecompressorCallback
  calm_walk

macro_rules | `(tactic| calm_known) => `(tactic| exact requestDecompressorCallback_calm _ _)

theorem requestDecompress_calm (e : Env) (o : Option Bytes) : Calm HasReq HasReq (requestDecompress e o) := by
  unfold requestDecompress
  calm_walk

macro_rules | `(tactic| calm_known) => `(tactic| exact requestDecompress_calm _ _)

theorem requestNext_calm (e : Env) (P : Conn → Prop) : Calm P Top (requestNext e) :=
  fun _ _ => ⟨by simp [requestNext, M.modify], trivial⟩

macro_rules | `(tactic| calm_known) => `(tactic| exact requestNext_calm _ _)

section
variable {e : Env} (he : e.ovf = false)
include he
set_option linter.unusedSectionVars false

theorem requestPlainBody_calm (o : Option Bytes) : Calm HasReq HasReq (requestPlainBody e o) := by
  unfold requestPlainBody
  simp only [he, Bool.false_and, Bool.false_eq_true, if_false]
  calm_walk

macro_rules | `(tactic| calm_known) => `(tactic| exact requestPlainBody_calm (by assumption) _)

theorem requestBodyData_calm (o : Option Bytes) : Calm HasReq HasReq (requestBodyData e o) := by
  unfold requestBodyData
  refine Calm.bind Calm.hasReq (fun t => ?_) fun _ h => h
  refine Calm.bind (Calm.putRequest .hasReq) (fun _ => ?_) fun _ h => h
  calm_walk

theorem requestBodyData_any (o : Option Bytes) (P : Conn → Prop) : Calm P Top (requestBodyData e o) := by
  unfold requestBodyData
  refine Calm.bind_requestTx fun t => ?_
  refine Calm.bind (Calm.putRequest .hasReq) (fun _ => ?_) fun _ _ => trivial
  calm_walk

macro_rules | `(tactic| calm_known) => `(tactic| exact requestBodyData_calm (by assumption) _)
macro_rules | `(tactic| calm_known) => `(tactic| exact requestBodyData_any (by assumption) _ _)

theorem completeRequest_calm (t : Tx) : Calm HasReq HasReq (completeRequest e t) := by
  unfold completeRequest
  calm_walk

macro_rules | `(tactic| calm_known) => `(tactic| exact completeRequest_calm (by assumption) _)

theorem stateRequestComplete_calm (P : Conn → Prop) : Calm P Top (stateRequestComplete e) := by
  unfold stateRequestComplete
  calm_walk

macro_rules | `(tactic| calm_known) => `(tactic| exact stateRequestComplete_calm (by assumption) _)

/-- Nothing in the transaction panics: see `Model.NoOverflow`. -/
theorem quiet_of_wraps : NoOverflow e.ovf e.cfg.decoderCfg := .inl he

theorem stateRequestStart_calm (P : Conn → Prop) : Calm P Top (stateRequestStart e) := by
  unfold stateRequestStart
  refine Calm.bind (Q := Top) (fun s _ => ⟨by simp [M.setReq, M.modify], trivial⟩) (fun _ => ?_) fun _ h => h
  calm_walk

theorem stateRequestTrailer_calm : Calm HasReq HasReq (stateRequestTrailer e) := by
  unfold stateRequestTrailer
  calm_walk

theorem stateRequestHeadersDone_calm : Calm HasReq HasReq (stateRequestHeadersDone e) := by
  unfold stateRequestHeadersDone
  calm_walk
  exact processRequestHeaders_calm _ _

macro_rules | `(tactic| calm_known) => `(tactic| exact stateRequestTrailer_calm (by assumption))
macro_rules | `(tactic| calm_known) => `(tactic| exact stateRequestHeadersDone_calm (by assumption))

theorem stateRequestHeaders_calm : Calm Top Top (stateRequestHeaders e) := by
  unfold stateRequestHeaders
  refine Calm.bind (requestReceiverFinalizeClear_calm e .top) (fun _ => ?_) fun _ h => h
  calm_walk

macro_rules | `(tactic| calm_known) => `(tactic| exact stateRequestHeaders_calm (by assumption))

theorem stateRequestLine_calm : Calm HasReq HasReq (stateRequestLine e) := by
  unfold stateRequestLine
  calm_walk
  · exact parseRequestLine_calm (quiet_of_wraps he) _
  next t h => exact absurd h (storeNormalizedUri_calm (quiet_of_wraps he) _)

macro_rules | `(tactic| calm_known) => `(tactic| exact stateRequestLine_calm (by assumption))

theorem requestConnectCheck_calm : Calm Top Top (requestConnectCheck e) := by
  unfold requestConnectCheck
  calm_walk

theorem requestConnectProbeData_calm : Calm Top Top (requestConnectProbeData e) := by
  unfold requestConnectProbeData
  calm_walk

theorem requestConnectWaitResponse_calm : Calm Top Top (requestConnectWaitResponse e) := by
  unfold requestConnectWaitResponse
  calm_walk

theorem requestBodyChunkedDataEnd_calm : Calm Top Top (requestBodyChunkedDataEnd e) := by
  unfold requestBodyChunkedDataEnd
  calm_walk

/-- Taking the beginning of the unread data that is there. -/
theorem inputPrefix_calm {n : Nat} {P : Conn → Prop} (h : ∀ s, P s → n ≤ s.input.asSlice.length) :
    Calm P P (inputPrefix n) := by
  intro s hs
  unfold inputPrefix
  rw [if_pos (h s hs)]
  exact ⟨by simp, hs⟩

theorem len_of_no_gap {d : PData} (h : d.isGap = false) : d.len = d.asSlice.length := by
  unfold PData.isGap at h
  unfold PData.len
  cases hg : d.gapLen with
  | none => rfl
  | some g => rw [hg] at h; cases h

theorem requestBodyChunkedData_calm : Calm (fun s => s.input.isGap = false) Top (requestBodyChunkedData e) := by
  unfold requestBodyChunkedData
  refine Calm.bind_state fun s => ?_
  refine Calm.ite (fun _ => Calm.fail fun _ _ => trivial) fun _ => ?_
  refine Calm.bind (Q := Top) (Calm.top (inputPrefix_calm he ?_)) (fun _ => ?_) fun _ h => h
  · rintro s' ⟨h1, rfl⟩
    rw [← len_of_no_gap he h1]
    exact Nat.min_le_left _ _
  · calm_walk

theorem requestChunkLine_calm (l : Bytes) : Calm HasReq HasReq (requestChunkLine e l) := by
  unfold requestChunkLine
  calm_walk

macro_rules | `(tactic| calm_known) => `(tactic| exact requestChunkLine_calm (by assumption) _)

theorem requestChunkedLengthLoop_calm (data : Bytes) : Calm Top Top (requestChunkedLengthLoop e data) := by
  induction h : data.length using Nat.strongRecOn generalizing data with
  | ind n ih =>
    subst h
    unfold requestChunkedLengthLoop
    split
    next remaining line hl =>
      have := ih remaining.length (takeTillIncl_shorter hl) remaining rfl
      calm_walk
    next => calm_walk

theorem requestBodyChunkedLength_calm : Calm Top Top (requestBodyChunkedLength e) := by
  unfold requestBodyChunkedLength
  exact Calm.bind_read fun s => requestChunkedLengthLoop_calm he _

theorem requestIdentityData_calm (n : Nat) : Calm (fun s => n ≤ s.input.len) Top (requestIdentityData e n) := by
  unfold requestIdentityData
  refine Calm.bind_state fun s => ?_
  refine Calm.ite (fun _ => ?_) fun hg => ?_
  · calm_walk
  · refine Calm.bind (Q := Top) (Calm.top (inputPrefix_calm he ?_)) (fun _ => ?_) fun _ h => h
    · rintro s' ⟨h1, rfl⟩
      rw [← len_of_no_gap he (by simpa using hg)]
      exact h1
    · calm_walk

theorem requestBodyIdentity_calm : Calm Top Top (requestBodyIdentity e) := by
  unfold requestBodyIdentity
  refine Calm.bind_state fun s => ?_
  split
  · exact Calm.fail fun _ _ => trivial
  next left _ =>
    dsimp only
    refine Calm.ite (fun _ => Calm.fail fun _ _ => trivial) fun _ => ?_
    refine Calm.bind (Q := Top) ((requestIdentityData_calm he _).pre ?_) (fun _ => ?_) fun _ h => h
    · rintro s' ⟨_, rfl⟩
      exact Nat.min_le_left _ _
    · calm_walk

theorem requestBodyDetermine_calm : Calm Top Top (requestBodyDetermine e) := by
  unfold requestBodyDetermine
  calm_walk

theorem requestHeadersClosed_calm : Calm Top Top (requestHeadersClosed e) := by
  unfold requestHeadersClosed
  refine Calm.bind_requestTx fun t => Calm.bind (Q := Top) (Calm.top (Calm.putRequest .hasReq)) (fun _ => ?_) fun _ h => h
  calm_walk

theorem requestHeaders_calm : Calm Top Top (requestHeaders e) := by
  unfold requestHeaders
  have := requestHeadersClosed_calm he
  calm_walk

theorem requestProtocol_calm : Calm Top Top (requestProtocol e) := by
  unfold requestProtocol
  calm_walk

theorem requestLineComplete_calm (l : Bytes) : Calm Top Top (requestLineComplete e l) := by
  unfold requestLineComplete
  calm_walk

macro_rules | `(tactic| calm_known) => `(tactic| exact requestLineComplete_calm (by assumption) _)

theorem requestLine_calm : Calm Top Top (requestLine e) := by
  unfold requestLine
  calm_walk

theorem requestFinalizeLine_calm (w : Bytes) : Calm Top Top (requestFinalizeLine e w) := by
  unfold requestFinalizeLine
  calm_walk

macro_rules | `(tactic| calm_known) => `(tactic| exact requestFinalizeLine_calm (by assumption) _)

theorem requestFinalize_calm : Calm Top Top (requestFinalize e) := by
  unfold requestFinalize
  calm_walk

theorem requestIgnoreDataAfterHttp09_calm : Calm Top Top requestIgnoreDataAfterHttp09 := by
  unfold requestIgnoreDataAfterHttp09
  calm_walk

theorem requestIdle_calm : Calm Top Top (requestIdle e) := by
  unfold requestIdle requestReset
  have := stateRequestStart_calm he Top
  calm_walk

theorem handleRequestState_calm :
    Calm (fun s => s.input.isGap = true → requestGapState s.req.state = true) Top (handleRequestState e) := by
  unfold handleRequestState
  refine Calm.bind_state fun s => ?_
  split
  · exact Calm.pre (requestIdle_calm he) fun _ _ => trivial
  · exact Calm.pre (requestIgnoreDataAfterHttp09_calm he) fun _ _ => trivial
  · exact Calm.pre (requestLine_calm he) fun _ _ => trivial
  · exact Calm.pre (requestProtocol_calm he) fun _ _ => trivial
  · exact Calm.pre (requestHeaders_calm he) fun _ _ => trivial
  · exact Calm.pre (requestConnectWaitResponse_calm he) fun _ _ => trivial
  · exact Calm.pre (requestConnectCheck_calm he) fun _ _ => trivial
  · exact Calm.pre (requestConnectProbeData_calm he) fun _ _ => trivial
  · exact Calm.pre (requestBodyDetermine_calm he) fun _ _ => trivial
  · rename_i hs
    refine Calm.pre (requestBodyChunkedData_calm he) fun s' h => ?_
    obtain ⟨hg, rfl⟩ := h
    rw [hs] at hg
    cases h : s'.input.isGap with
    | false => rfl
    | true => exact absurd (hg h) (by decide)
  · exact Calm.pre (requestBodyChunkedLength_calm he) fun _ _ => trivial
  · exact Calm.pre (requestBodyChunkedDataEnd_calm he) fun _ _ => trivial
  · exact Calm.pre (requestBodyIdentity_calm he) fun _ _ => trivial
  · exact Calm.pre (requestFinalize_calm he) fun _ _ => trivial
  all_goals exact Calm.fail fun _ _ => trivial

end

/-! ### The request transaction exists whenever a step has led to the reading of headers -/

/-- After a successful step that ends in the state `headers`, the transaction exists. -/
def Fine (r : Except Err Unit) (s : Conn) : Prop := r = .ok () → s.req.state = .headers → HasReq s

theorem Fine.error {x : Err} {s : Conn} : Fine (.error x) s := fun h => by cases h
theorem Fine.not {r : Except Err Unit} {s : Conn} (h : r = .ok () → s.req.state ≠ .headers) : Fine r s :=
  fun hr hs => absurd hs (h hr)

theorem post.bind_hasReq {β : Type} {e : Env} {f : Tx → M β} {s : Conn} {Q : Except Err β → Conn → Prop}
    (hx : ∀ x s', Q (.error x) s') (h : ∀ t s', HasReq s' → s'.req = s.req → s'.input = s.input → post (f t) s' Q) :
    post (requestTx e >>= f) s Q := by
  refine post.bind ?_
  unfold post Model.requestTx Txs.requestMut Txs.entry
  cases hg : s.txs.get s.txs.request with
  | some t => exact h _ _ (by unfold HasReq; rw [hg]; rfl) rfl rfl
  | none =>
    dsimp only
    by_cases hl : s.txs.map.length ≥ e.cfg.maxTx
    · rw [if_pos hl]; exact hx _ _
    · rw [if_neg hl]
      refine h _ _ ?_ rfl rfl
      show ((s.txs.set s.txs.request _).get s.txs.request).isSome = true
      rw [Txs.get_set, if_pos rfl]; rfl

theorem requestProtocol_fine (e : Env) (s : Conn) : post (requestProtocol e) s Fine := by
  unfold requestProtocol
  refine post.bind_hasReq (fun _ _ => Fine.error) fun t s1 h1 _ _ => ?_
  refine post.bind_state ?_
  dsimp only
  split
  · exact fun _ _ => Lasting.hasReq.same (s := { s1 with txs := _ }) rfl (Lasting.hasReq.set h1)
  · split
    · exact fun _ _ => Lasting.hasReq.same (s := { s1 with txs := _ }) rfl (Lasting.hasReq.set h1)
    · exact fun _ _ => Lasting.hasReq.same (s := s1) rfl h1

theorem handleRequestAbsentLf_fine (e : Env) (s : Conn) : post (handleRequestAbsentLf e) s Fine := by
  unfold handleRequestAbsentLf
  refine post.bind_any fun _ _ => post.bind_any fun _ _ => post.bind_any fun _ _ => ?_
  exact post.bind_any fun _ _ => Fine.error

theorem stateRequestComplete_fine (e : Env) (s : Conn) : post (stateRequestComplete e) s Fine :=
  (stateRequestComplete_state e s).mono fun _ _ h => Fine.not fun hr => by
    rcases h hr with h | h <;> rw [h] <;> decide

theorem requestChunkLine_fine {e : Env} (he : e.ovf = false) (s : Conn) (l : Bytes) (h : HasReq s) :
    post (requestChunkLine e l) s Fine := fun _ _ => (requestChunkLine_calm he l s h).2

theorem requestChunkedLengthLoop_fine {e : Env} (he : e.ovf = false) (data : Bytes) (s : Conn) :
    post (requestChunkedLengthLoop e data) s Fine := by
  induction h : data.length using Nat.strongRecOn generalizing data s with
  | ind n ih =>
    subst h
    unfold requestChunkedLengthLoop
    split
    next remaining line hl =>
      refine post.bind_any fun _ _ => post.bind_any fun _ _ => post.bind_any fun _ _ => ?_
      refine post.bind_hasReq (fun _ _ => Fine.error) fun t s1 h1 _ _ => ?_
      split
      · exact post.bind_any fun _ s2 => ih remaining.length (takeTillIncl_shorter hl) remaining _ rfl
      · exact requestChunkLine_fine he _ _ h1
    next =>
      split
      · exact handleRequestAbsentLf_fine e s
      · exact Fine.error

theorem requestFinalizeLine_fine (e : Env) (s : Conn) (w : Bytes) (hs : s.req.state ≠ .headers) :
    post (requestFinalizeLine e w) s Fine := by
  unfold requestFinalizeLine
  refine post.bind_state (Q := Fine) ?_
  refine post.bind_rel (R := ReqSt) (by rel_walk) (fun _ s1 k1 => ?_) fun _ _ _ => Fine.error
  refine post.bind_setReq ?_
  dsimp only
  refine post.ite (fun _ => stateRequestComplete_fine e _) fun _ => ?_
  refine post.ite (fun _ => ?_) fun _ => ?_
  · refine (Rel.post (R := ReqSt) (by rel_known) _).mono fun r s' k _ h => ?_
    exact absurd (k.symm.trans h) (by show s1.req.state ≠ _; rw [k1]; exact hs)
  refine post.ite (fun _ => ?_) fun _ => ?_
  · refine post.bind_setReq ?_
    refine (Rel.post (R := ReqSt) (by rel_known) _).mono fun r s' k _ h => ?_
    exact absurd (k.symm.trans h) (by show s1.req.state ≠ _; rw [k1]; exact hs)
  · exact post.bind_any fun _ _ => post.bind_any fun _ _ => stateRequestComplete_fine e _

theorem requestHeaders_fine (e : Env) (s : Conn) : post (requestHeaders e) s Fine := by
  have key : ∀ s, post (stateRequestHeaders e) s Fine := fun s =>
    (stateRequestHeaders_state e s).mono fun _ _ h => Fine.not fun hr => by
      rcases h hr with h | h <;> rw [h] <;> decide
  unfold requestHeaders
  refine post.bind_state (Q := Fine) ?_
  refine post.ite (fun _ => ?_) fun _ => ?_
  · unfold requestHeadersClosed
    refine post.bind_any fun _ _ => post.bind_any fun _ _ => post.bind_any fun _ _ => post.bind_any fun _ _ => ?_
    exact post.bind_any fun _ _ => key _
  · refine post.bind_any fun _ _ => ?_
    refine post.bind_any fun _ _ => ?_
    dsimp only
    split
    · exact post.bind_any fun _ _ => key _
    · exact post.bind_any fun _ _ => post.bind_any fun _ _ => post.bind_any fun _ _ => Fine.error

theorem Fine.last {f : Half → Half} {s : Conn} (h : (f s.req).state ≠ .headers) : post (M.setReq f) s Fine :=
  Fine.not fun _ => h

theorem handleRequestState_fine {e : Env} (he : e.ovf = false) (s : Conn) : post (handleRequestState e) s Fine := by
  unfold handleRequestState
  refine post.bind_state (Q := Fine) ?_
  split
  next hs =>
    unfold requestIdle
    refine post.bind_state (Q := Fine) ?_
    split
    · exact Fine.error
    · refine post.bind_any fun _ s1 => ?_
      refine post.bind (post.attempt ?_)
      have h1 := stateRequestStart_state e s1
      unfold post
      cases hq : stateRequestStart e s1 with
      | mk r s2 =>
        rw [hq] at h1
        have h2 : post (pure () : M Unit) s2 Fine := Fine.not fun _ => by
          show s2.req.state ≠ _
          rw [h1]; decide
        cases r with
        | ok a => exact h2
        | error x =>
          cases x with
          | status x => exact h2
          | panic => exact Fine.error
  next hs =>
    unfold requestIgnoreDataAfterHttp09
    exact post.bind_any fun _ _ => post.bind_any fun _ _ => post.bind_any fun _ _ => Fine.error
  next hs =>
    have key : ∀ l s, s.req.state = .line → post (requestLineComplete e l) s Fine := fun l s hs =>
      (requestLineComplete_state e s l hs).mono fun r s' h => Fine.not fun hr => by
        rcases (h hr).2 with h | h <;> rw [h] <;> decide
    unfold requestLine
    refine post.bind_state (Q := Fine) ?_
    split
    · exact post.bind_setReq (post.bind_modify (key _ _ hs))
    · split
      · exact post.bind_setReq (post.bind_modify (key _ _ hs))
      · exact handleRequestAbsentLf_fine e s
  next hs => exact requestProtocol_fine e s
  next hs => exact requestHeaders_fine e s
  next hs =>
    unfold requestConnectWaitResponse
    refine post.bind_any fun _ _ => ?_
    split
    · exact Fine.error
    · split <;> exact Fine.last (by simp)
  next hs =>
    unfold requestConnectCheck
    refine post.bind_any fun _ _ => ?_
    split
    · exact post.bind_any fun _ _ => Fine.error
    · exact Fine.last (by simp)
  next hs =>
    unfold requestConnectProbeData
    refine post.bind_state (Q := Fine) ?_
    split
    · refine post.bind_rel (R := ReqSt) (by rel_walk) (fun _ s1 k1 => ?_) fun _ _ _ => Fine.error
      split
      · refine Fine.not fun _ => ?_
        show s1.req.state ≠ _
        rw [k1, hs]; decide
      · exact stateRequestComplete_fine e _
    · exact handleRequestAbsentLf_fine e s
  next hs =>
    unfold requestBodyDetermine
    refine post.bind_any fun _ _ => ?_
    split
    · exact post.bind_any fun _ _ => Fine.last (by simp)
    · split
      · exact post.bind_any fun _ _ => Fine.last (by simp)
      · exact Fine.last (by simp)
    · exact Fine.last (by simp)
    · exact Fine.error
  next hs =>
    unfold requestBodyChunkedData
    refine post.bind_state (Q := Fine) ?_
    dsimp only
    split
    · exact Fine.error
    · refine post.bind_any fun _ _ => post.bind_any fun _ _ => post.bind_any fun _ _ => post.bind_any fun _ _ => ?_
      refine post.bind_any fun _ _ => ?_
      split
      · exact Fine.last (by simp)
      · exact Fine.error
  next hs => exact post.bind_state (requestChunkedLengthLoop_fine he _ s)
  next hs =>
    unfold requestBodyChunkedDataEnd
    refine post.bind_any fun _ _ => post.bind_any fun _ _ => ?_
    split
    · exact post.bind_any fun _ _ => post.bind_any fun _ _ => Fine.last (by simp)
    · exact post.bind_any fun _ _ => handleRequestAbsentLf_fine e _
  next hs =>
    unfold requestBodyIdentity
    refine post.bind_state (Q := Fine) ?_
    split
    · exact Fine.error
    · dsimp only
      split
      · exact Fine.error
      · refine post.bind_any fun _ _ => post.bind_any fun _ _ => post.bind_any fun _ _ => ?_
        split
        · exact Fine.error
        · refine post.bind_setReq ?_
          refine (Rel.post (R := ReqSt) (by rel_known) _).mono fun r s' k => Fine.not fun _ => ?_
          rw [k]
          simp
  next hs =>
    have key : ∀ w s, s.req.state = .finalize → post (requestFinalizeLine e w) s Fine := fun w s hs =>
      requestFinalizeLine_fine e s w (by rw [hs]; decide)
    unfold requestFinalize
    refine post.bind_state (Q := Fine) ?_
    split
    · exact stateRequestComplete_fine e _
    · split
      · exact key _ _ hs
      · split
        · exact stateRequestComplete_fine e _
        · split
          · exact post.bind_modify (key _ _ hs)
          · exact handleRequestAbsentLf_fine e _
  all_goals exact Fine.error

/-! ### The loop and the call -/

theorem requestAfterStep_calm (e : Env) (rc : Except Status Unit) : Calm Top Top (requestAfterStep e rc) := by
  unfold requestAfterStep requestReturn
  calm_walk

theorem requestHandleStateChange_calm (e : Env) :
    Calm (fun s => s.req.state = .headers → HasReq s) Top (requestHandleStateChange e) := by
  unfold requestHandleStateChange
  refine Calm.bind_state fun s => ?_
  refine Calm.ite (fun _ => Calm.pure fun _ _ => trivial) fun _ => ?_
  refine Calm.bind (Q := Top) (Calm.when (fun _ _ => trivial) fun hc => ?_) (fun _ => ?_) fun _ _ => trivial
  · refine (Calm.top (requestSetReceiver_calm e)).pre fun s' h => ?_
    obtain ⟨h, rfl⟩ := h
    exact h (by simpa using hc)
  · calm_walk

theorem requestStepTail_calm (e : Env) (rc : Except Status Unit) :
    Calm (fun s => rc = .ok () → s.req.state = .headers → HasReq s) Top (requestStepTail e rc) := by
  unfold requestStepTail
  refine Calm.bind_state fun s => ?_
  split
  · refine Calm.ite (fun _ => Calm.pure fun _ _ => trivial) fun _ => ?_
    refine Calm.bind (Q := Top) (Calm.attempt ((requestHandleStateChange_calm e).pre fun s' h => h.1 rfl))
      (fun r => requestAfterStep_calm e r) fun _ _ => trivial
  · exact (requestAfterStep_calm e _).pre fun _ _ => trivial

theorem requestStep_calm {e : Env} (he : e.ovf = false) : Calm Top Top (requestStep e) := by
  unfold requestStep
  refine Calm.bind_state fun s => ?_
  refine Calm.ite (fun _ => Calm.pure fun _ _ => trivial) fun hg => ?_
  rintro s' ⟨_, rfl⟩
  refine ⟨?_, trivial⟩
  have h1 := (handleRequestState_calm he s' (fun h => by simpa [h] using hg)).1
  have h2 : Fine _ _ := handleRequestState_fine he s'
  refine post.bind (Q := fun r _ => r ≠ .error .panic) (post.attempt ?_)
  unfold post
  cases hm : handleRequestState e s' with
  | mk r s1 =>
    rw [hm] at h1 h2
    cases r with
    | ok a => exact (requestStepTail_calm e _ s1 fun _ => h2 rfl).1
    | error x =>
      cases x with
      | status x => exact (requestStepTail_calm e _ s1 fun h => by cases h).1
      | panic => exact absurd rfl h1

theorem requestLoop_calm {e : Env} (he : e.ovf = false) (n : Nat) : Calm Top Top (requestLoop e n) := by
  induction n with
  | zero => exact Calm.pure fun _ _ => trivial
  | succ n ih =>
    unfold requestLoop
    refine Calm.bind (Q := Top) (requestStep_calm he) (fun r => ?_) fun _ _ => trivial
    split
    · exact Calm.pure fun _ _ => trivial
    · exact ih

theorem requestNoteGap_calm (e : Env) : Calm Top Top (requestNoteGap e) := by
  unfold requestNoteGap requestReturn
  calm_walk

theorem requestProcess_calm {e : Env} (he : e.ovf = false) : Calm Top Top (requestProcess e) := by
  unfold requestProcess requestEarly
  have h1 := requestNoteGap_calm e
  have h2 := requestLoop_calm he
  refine Calm.bind (Q := Top) (fun _ _ => ⟨by simp [M.modify], trivial⟩) (fun _ => ?_) fun _ _ => trivial
  refine Calm.bind_read fun s => ?_
  refine Calm.bind (Q := Top) ?_ (fun r => ?_) fun _ _ => trivial
  · calm_walk
  · split
    · exact Calm.pure fun _ _ => trivial
    · exact h2 _

theorem requestData_calm {e : Env} (he : e.ovf = false) (c : PData) : Calm Top Top (requestData e c) := by
  unfold requestData
  have h := requestProcess_calm he
  calm_walk

theorem requestClose_calm {e : Env} (he : e.ovf = false) : Calm Top Top (requestClose e) := by
  unfold requestClose
  exact Calm.bind (Q := Top) (Calm.setReq .top) (fun _ => requestData_calm he _) fun _ _ => trivial

end Model

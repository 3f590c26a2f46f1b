/-
The loops over the state machines: the invariants hold in every round and the loops end.
-/
import Verif.Lemmas.ConnReqStep
import Verif.Lemmas.ConnRespStep

namespace Model

open M

theorem post.bind_attempt {α β : Type} {m : M α} {f : Except Status α → M β} {s : Conn}
    {P : Except Err α → Conn → Prop} {Q : Except Err β → Conn → Prop} (h : post m s P)
    (hr : ∀ x s', (∀ a, x = .ok a → P (.ok a) s') → (∀ st, x = .error st → P (.error (.status st)) s') →
      post (f x) s' Q)
    (hp : ∀ s', P (.error .panic) s' → Q (.error .panic) s') : post (M.attempt m >>= f) s Q := by
  refine post.bind (post.attempt ?_)
  refine h.mono fun r s' hP => ?_
  cases r with
  | ok a =>
    refine hr _ s' (fun b hb => ?_) fun st hst => by cases hst
    cases hb
    exact hP
  | error x =>
    cases x with
    | panic => exact hp s' hP
    | status x =>
      refine hr _ s' (fun b hb => by cases hb) fun st hst => ?_
      cases hst
      exact hP

/-- The same, with a relation that holds whatever the result. -/
theorem post.bind_attempt_rel {α β : Type} {R : Conn → Conn → Prop} {m : M α}
    {f : Except Status α → M β} {s : Conn} {Q : Except Err β → Conn → Prop} (h : Rel R m)
    (hr : ∀ x s', R s s' → post (f x) s' Q) (hp : ∀ s', R s s' → Q (.error .panic) s') :
    post (M.attempt m >>= f) s Q := by
  refine post.bind_attempt (h.post s) (fun x s' h1 h2 => hr x s' ?_) hp
  cases x with
  | ok a => exact h1 a rfl
  | error x => exact h2 x rfl

/-! The request loop. -/

/-- What a round does. -/
structure ReqRound (e : Env) (n : Nat) (r : Except Err (Option StreamState)) (s' : Conn) : Prop where
  ok : ReqOK e s'
  less : r = .ok none → reqMeasure s' < n
  noStatus : ∀ x, r ≠ .error (.status x)
  notClosed : ∀ st, r = .ok (some st) → s'.req.status = .closed → s'.input.isGap = true

theorem requestReturn_round (e : Env) (s : Conn) (h : ReqOK e s) (n : Nat) (st : StreamState)
    (hst : st ≠ .closed) : post (requestReturn st) s (ReqRound e n) := by
  unfold requestReturn
  exact post.bind_setReq ⟨⟨h.1, h.2, h.3, fun hc => absurd hc hst, h.5⟩, (fun hr => by cases hr),
    (fun x hr => by cases hr), fun _ _ hc => absurd hc hst⟩

theorem requestAfterStep_round (e : Env) (s : Conn) (h : ReqOK e s) (n : Nat) (rc : Except Status Unit)
    (hrc : rc = .ok () → reqMeasure s < n) : post (requestAfterStep e rc) s (ReqRound e n) := by
  unfold requestAfterStep
  have hdata : post (do let _ ← attempt (requestReceiverSendData e); requestReturn .data) s (ReqRound e n) := by
    refine post.bind_attempt_rel (R := ReqKept) (by rel_known) (fun x s' k => ?_) fun s' k => ?_
    · exact requestReturn_round e s' (h.kept k) n _ (by decide)
    · exact ⟨h.kept k, (fun hr => by cases hr), (fun x hr => by cases hr), (fun st hr => by cases hr)⟩
  split
  · exact ⟨h, fun _ => hrc rfl, (fun x hr => by cases hr), (fun st hr => by cases hr)⟩
  · exact hdata
  · exact hdata
  · refine post.bind_state (post.ite (fun _ => ?_) fun _ => ?_) <;>
      exact requestReturn_round e s h n _ (by decide)
  · exact requestReturn_round e s h n _ (by decide)
  · exact requestReturn_round e s h n _ (by decide)

theorem requestStepTail_round (e : Env) (s : Conn) (h : ReqOK e s) (n : Nat) (rc : Except Status Unit)
    (hrc : rc = .ok () → reqMeasure s < n ∨ s.req.status = .tunnel) :
    post (requestStepTail e rc) s (ReqRound e n) := by
  unfold requestStepTail
  refine post.bind_state ?_
  split
  · refine post.ite (fun ht => ?_) fun hnt => ?_
    · exact ⟨h, (fun hr => by cases hr), (fun x hr => by cases hr),
        (fun _ _ hc => absurd (ht.symm.trans hc) (by decide))⟩
    · have hlt : reqMeasure s < n := (hrc rfl).resolve_right hnt
      refine post.bind_attempt
        (((requestHandleStateChange_kept e).post s).conj ((requestHandleStateChange_st e).post s))
        (fun x s' h1 h2 => ?_) fun s' k => ?_
      · have k : ReqKept s s' ∧ ReqSt s s' := by
          cases x with
          | ok a => exact h1 a rfl
          | error x => exact h2 x rfl
        refine requestAfterStep_round e s' (h.kept k.1) n x fun _ => ?_
        unfold reqMeasure at hlt ⊢
        rw [k.1.len, k.1.buf, k.2]
        exact hlt
      · exact ⟨h.kept k.1, (fun hr => by cases hr), (fun x hr => by cases hr), (fun st hr => by cases hr)⟩
  · exact requestAfterStep_round e s h n _ (fun hr => by cases hr)

theorem requestStep_round (e : Env) (s : Conn) (h : ReqOK e s) :
    post (requestStep e) s (ReqRound e (reqMeasure s)) := by
  unfold requestStep
  refine post.bind_state (post.ite (fun hg => ?_) fun _ => ?_)
  · rw [Bool.and_eq_true] at hg
    exact ⟨h, (fun hr => by cases hr), (fun x hr => by cases hr), fun _ _ _ => hg.1⟩
  · refine post.bind_attempt (handleRequestState_good e s h) (fun x s' h1 h2 => ?_) fun s' k => ?_
    · have hok : ReqOK e s' := by
        cases x with
        | ok a => exact (h1 a rfl).1
        | error x => exact (h2 x rfl).1
      exact requestStepTail_round e s' hok _ x fun hr => (h1 () hr).2 rfl
    · exact ⟨k.1, (fun hr => by cases hr), (fun x hr => by cases hr), (fun st hr => by cases hr)⟩

/-- With more rounds than the measure, the loop ends. -/
theorem requestLoop_round (e : Env) (n : Nat) (s : Conn) (h : ReqOK e s) :
    post (requestLoop e n) s (fun r s' => ReqRound e (reqMeasure s + 1) r s' ∧
      (reqMeasure s < n → r ≠ .ok none)) := by
  induction n generalizing s with
  | zero =>
    exact ⟨⟨h, fun _ => Nat.lt_succ_self _, (fun x hr => by cases hr), (fun st hr => by cases hr)⟩,
      fun hn => by omega⟩
  | succ n ih =>
    unfold requestLoop
    refine post.bind ((requestStep_round e s h).mono fun r s1 hr => ?_)
    cases r with
    | error x =>
      refine ⟨⟨hr.ok, (fun hh => by cases hh), fun y hh => ?_, (fun st hh => by cases hh)⟩, (fun _ hh => by cases hh)⟩
      exact hr.noStatus y (by cases hh; rfl)
    | ok o =>
      cases o with
      | some st =>
        exact ⟨⟨hr.ok, (fun hh => by cases hh), (fun y hh => by cases hh),
          fun st' _ => hr.notClosed st rfl⟩, (fun _ hh => by cases hh)⟩
      | none =>
        have hlt := hr.less rfl
        refine (ih s1 hr.ok).mono fun r s2 ⟨h2, h3⟩ => ⟨⟨h2.ok, fun hh => ?_, h2.noStatus, h2.notClosed⟩,
          fun hn => h3 (by omega)⟩
        have := h2.less hh
        omega

theorem requestNoteGap_round (e : Env) (s : Conn) (h : ReqOK e s) (hg : s.input.isGap = true) :
    post (requestNoteGap e) s (fun r s' => ReqOK e s' ∧ (r = .ok none → reqMeasure s' = reqMeasure s) ∧
      (∀ x, r ≠ .error (.status x)) ∧
      ∀ st, r = .ok (some st) → s'.req.status = .closed → s'.input.isGap = true) := by
  unfold requestNoteGap
  refine post.bind_attempt_rel (R := Same) (by rel_known) (fun x s1 k => ?_) fun s1 k => ?_
  rotate_left
  · exact ⟨h.kept k.reqKept, (fun hr => by cases hr), (fun x hr => by cases hr), (fun st hr => by cases hr)⟩
  have hg1 : s1.input.isGap = true := by
    unfold PData.isGap
    rw [k.reqKept.gap]
    exact hg
  have h1 := h.kept k.reqKept
  have hm1 : reqMeasure s1 = reqMeasure s := by
    obtain ⟨_, _, rfl⟩ := k
    rfl
  split
  · exact ⟨h1, (fun hr => by cases hr), (fun x hr => by cases hr), fun _ _ _ => hg1⟩
  · refine post.bind_state (post.ite (fun _ => ?_) fun _ => ?_)
    · refine post.bind_modify ?_
      refine (requestReturn_round e _ ?_ 0 .error (by decide)).mono fun r s' hh => ?_
      · exact ⟨h1.1, h1.2, h1.3, h1.4, h1.5⟩
      · exact ⟨hh.ok, fun hr => absurd (hh.less hr) (by omega), hh.noStatus, hh.notClosed⟩
    · refine post.bind_modify ?_
      exact ⟨⟨h1.1, h1.2, h1.3, h1.4, h1.5⟩, fun _ => hm1, (fun x hr => by cases hr),
        (fun st hr => by cases hr)⟩

theorem requestEarly_round (e : Env) (s : Conn) (h : ReqOK e s) :
    post (requestEarly e) s (fun r s' => ReqOK e s' ∧ (r = .ok none → reqMeasure s' = reqMeasure s) ∧
      (∀ x, r ≠ .error (.status x)) ∧
      ∀ st, r = .ok (some st) → s'.req.status = .closed → s'.input.isGap = true) := by
  unfold requestEarly
  refine post.bind_state (post.ite (fun hg => requestNoteGap_round e s h hg) fun _ => ?_)
  exact ⟨h, fun _ => rfl, (fun x hr => by cases hr), (fun st hr => by cases hr)⟩

theorem reqMeasure_lt_rounds (s : Conn) : reqMeasure s < requestRounds s := by
  unfold reqMeasure requestRounds
  have h1 := reqRank_lt s.req.state
  have h2 := Nat.mul_le_mul_right s.req.buf.length (reqWeight_le s.req.state).2
  omega

/-- The processing of a chunk ends. -/
theorem requestProcess_done (e : Env) (s : Conn) (h : ReqOK e s) :
    post (requestProcess e) s (fun r s' => ReqOK e s' ∧ r ≠ .ok none ∧ (∀ x, r ≠ .error (.status x)) ∧
      (∀ st, r = .ok (some st) → s'.req.status = .closed → s'.input.isGap = true)) := by
  unfold requestProcess
  refine post.bind_modify (post.bind_state ?_)
  generalize hs1 : ({ s with resp := if s.resp.status = .dataOther then { s.resp with status := .data } else s.resp } : Conn) = s1
  have h1 : ReqOK e s1 := by
    subst hs1
    exact ⟨h.1, h.2, h.3, h.4, h.5⟩
  refine post.bind ((requestEarly_round e s1 h1).mono fun r s2 ⟨a, b, c, d⟩ => ?_)
  cases r with
  | error x =>
    refine ⟨a, (fun hh => by cases hh), fun y hh => c y (by cases hh; rfl), (fun st hh => by cases hh)⟩
  | ok o =>
    cases o with
    | some st =>
      exact ⟨a, (fun hh => by cases hh), (fun y hh => by cases hh), fun st' _ => d st rfl⟩
    | none =>
      refine (requestLoop_round e _ s2 a).mono fun r s3 ⟨h3, h4⟩ => ⟨h3.ok, h4 ?_, h3.noStatus, h3.notClosed⟩
      rw [b rfl]
      exact reqMeasure_lt_rounds s1

/-! The response loop. -/

/-- What a round does. -/
structure RespRound (e : Env) (n : Nat) (r : Except Err (Option StreamState)) (s' : Conn) : Prop where
  ok : RespOK e s'
  less : r = .ok none → respMeasure s' < n
  noStatus : ∀ x, r ≠ .error (.status x)
  notClosed : ∀ st, r = .ok (some st) → s'.resp.status = .closed → s'.input.isGap = true

theorem responseReturn_round (e : Env) (s : Conn) (h : RespOK e s) (n : Nat) (st : StreamState)
    (hst : st ≠ .closed) : post (responseReturn st) s (RespRound e n) := by
  unfold responseReturn
  exact post.bind_setResp ⟨⟨h.1, h.2, h.3, fun hc => absurd hc hst, h.5⟩, (fun hr => by cases hr),
    (fun x hr => by cases hr), fun _ _ hc => absurd hc hst⟩

theorem responseAfterStep_round (e : Env) (s : Conn) (h : RespOK e s) (n : Nat) (rc : Except Status Unit)
    (hrc : rc = .ok () → respMeasure s < n) : post (responseAfterStep e rc) s (RespRound e n) := by
  unfold responseAfterStep
  have hdata : post (do let _ ← attempt (responseReceiverSendData e); responseReturn .data) s (RespRound e n) := by
    refine post.bind_attempt_rel (R := RespKept) (by rel_known) (fun x s' k => ?_) fun s' k => ?_
    · exact responseReturn_round e s' (h.kept k) n _ (by decide)
    · exact ⟨h.kept k, (fun hr => by cases hr), (fun x hr => by cases hr), (fun st hr => by cases hr)⟩
  split
  · exact ⟨h, fun _ => hrc rfl, (fun x hr => by cases hr), (fun st hr => by cases hr)⟩
  · exact hdata
  · exact hdata
  · exact responseReturn_round e s h n _ (by decide)
  · refine post.bind_state (post.ite (fun _ => ?_) fun _ => ?_) <;>
      exact responseReturn_round e s h n _ (by decide)
  · exact responseReturn_round e s h n _ (by decide)

/-- The status of the response stream is kept. -/
def RespStat (s s' : Conn) : Prop := s'.resp.status = s.resp.status

theorem RespStat.pre : Pre RespStat where
  refl _ := rfl
  trans h h' := h'.trans h

theorem Rel.respStat {α : Type} {m : M α} (h : Rel Same m) : Rel RespStat m := fun s => by
  obtain ⟨_, _, h⟩ := h s
  unfold RespStat
  rw [h]

macro_rules | `(tactic| rel_pre) => `(tactic| exact RespStat.pre)
macro_rules | `(tactic| rel_known) => `(tactic| (refine Rel.respStat ?_; rel_known))

theorem responseReceiverSendData_stat (e : Env) : Rel RespStat (responseReceiverSendData e) := by
  unfold responseReceiverSendData
  rel_walk
  rfl

macro_rules | `(tactic| rel_known) => `(tactic| exact responseReceiverSendData_stat _)

theorem responseReceiverFinalizeClear_stat (e : Env) : Rel RespStat (responseReceiverFinalizeClear e) := by
  unfold responseReceiverFinalizeClear
  rel_walk <;> rfl

macro_rules | `(tactic| rel_known) => `(tactic| exact responseReceiverFinalizeClear_stat _)

theorem responseSetReceiver_stat (e : Env) : Rel RespStat (responseSetReceiver e) := by
  unfold responseSetReceiver
  rel_walk <;> rfl

macro_rules | `(tactic| rel_known) => `(tactic| exact responseSetReceiver_stat _)

theorem responseHandleStateChange_status (e : Env) : Rel RespStat (responseHandleStateChange e) := by
  unfold responseHandleStateChange
  rel_walk <;> rfl

theorem responseStepTail_round (e : Env) (s : Conn) (h : RespOK e s) (n : Nat) (rc : Except Status Unit)
    (hrc : rc = .ok () → respMeasure s < n) :
    post (responseStepTail e rc) s (RespRound e n) := by
  unfold responseStepTail
  refine post.bind_state ?_
  split
  · refine post.ite (fun ht => ?_) fun hnt => ?_
    · exact ⟨h, (fun hr => by cases hr), (fun x hr => by cases hr),
        (fun _ _ hc => absurd (ht.symm.trans hc) (by decide))⟩
    · have hlt : respMeasure s < n := hrc rfl
      refine post.bind_attempt
        (((responseHandleStateChange_kept e).post s).conj
          (((responseHandleStateChange_st e).post s).conj ((responseHandleStateChange_status e).post s)))
        (fun x s' h1 h2 => ?_) fun s' k => ?_
      · have k : RespKept s s' ∧ RespSt s s' ∧ s'.resp.status = s.resp.status := by
          cases x with
          | ok a => exact h1 a rfl
          | error x => exact h2 x rfl
        refine responseAfterStep_round e s' (h.kept k.1) n x fun _ => ?_
        unfold respMeasure at hlt ⊢
        rw [k.1.len, k.1.buf, k.2.1, k.2.2]
        exact hlt
      · exact ⟨h.kept k.1, (fun hr => by cases hr), (fun x hr => by cases hr), (fun st hr => by cases hr)⟩
  · exact responseAfterStep_round e s h n _ (fun hr => by cases hr)

theorem responseStep_round (e : Env) (s : Conn) (h : RespOK e s) :
    post (responseStep e) s (RespRound e (respMeasure s)) := by
  unfold responseStep
  refine post.bind_state (post.ite (fun hg => ?_) fun _ => ?_)
  · rw [Bool.and_eq_true] at hg
    exact ⟨h, (fun hr => by cases hr), (fun x hr => by cases hr), fun _ _ _ => hg.1⟩
  · refine post.bind_attempt (handleResponseState_good e s h) (fun x s' h1 h2 => ?_) fun s' k => ?_
    · have hok : RespOK e s' := by
        cases x with
        | ok a => exact (h1 a rfl).1
        | error x => exact (h2 x rfl).1
      exact responseStepTail_round e s' hok _ x fun hr => (h1 () hr).2 rfl
    · exact ⟨k.1, (fun hr => by cases hr), (fun x hr => by cases hr), (fun st hr => by cases hr)⟩

/-- With more rounds than the measure, the loop ends. -/
theorem responseLoop_round (e : Env) (n : Nat) (s : Conn) (h : RespOK e s) :
    post (responseLoop e n) s (fun r s' => RespRound e (respMeasure s + 1) r s' ∧
      (respMeasure s < n → r ≠ .ok none)) := by
  induction n generalizing s with
  | zero =>
    exact ⟨⟨h, fun _ => Nat.lt_succ_self _, (fun x hr => by cases hr), (fun st hr => by cases hr)⟩,
      fun hn => by omega⟩
  | succ n ih =>
    unfold responseLoop
    refine post.bind ((responseStep_round e s h).mono fun r s1 hr => ?_)
    cases r with
    | error x =>
      refine ⟨⟨hr.ok, (fun hh => by cases hh), fun y hh => ?_, (fun st hh => by cases hh)⟩, (fun _ hh => by cases hh)⟩
      exact hr.noStatus y (by cases hh; rfl)
    | ok o =>
      cases o with
      | some st =>
        exact ⟨⟨hr.ok, (fun hh => by cases hh), (fun y hh => by cases hh),
          fun st' _ => hr.notClosed st rfl⟩, (fun _ hh => by cases hh)⟩
      | none =>
        have hlt := hr.less rfl
        refine (ih s1 hr.ok).mono fun r s2 ⟨h2, h3⟩ => ⟨⟨h2.ok, fun hh => ?_, h2.noStatus, h2.notClosed⟩,
          fun hn => h3 (by omega)⟩
        have := h2.less hh
        omega

theorem responseNoteGap_round (e : Env) (s : Conn) (h : RespOK e s) (hg : s.input.isGap = true) :
    post (responseNoteGap e) s (fun r s' => RespOK e s' ∧ (r = .ok none → respMeasure s' = respMeasure s) ∧
      (∀ x, r ≠ .error (.status x)) ∧
      ∀ st, r = .ok (some st) → s'.resp.status = .closed → s'.input.isGap = true) := by
  unfold responseNoteGap
  refine post.bind_attempt_rel (R := Same) (by rel_known) (fun x s1 k => ?_) fun s1 k => ?_
  rotate_left
  · exact ⟨h.kept k.respKept, (fun hr => by cases hr), (fun x hr => by cases hr), (fun st hr => by cases hr)⟩
  have hg1 : s1.input.isGap = true := by
    unfold PData.isGap
    rw [k.respKept.gap]
    exact hg
  have h1 := h.kept k.respKept
  have hm1 : respMeasure s1 = respMeasure s := by
    obtain ⟨_, _, rfl⟩ := k
    rfl
  split
  · exact ⟨h1, (fun hr => by cases hr), (fun x hr => by cases hr), fun _ _ _ => hg1⟩
  · refine post.bind_state (post.ite (fun _ => ?_) fun _ => ?_)
    · refine post.bind_modify ?_
      refine (responseReturn_round e _ ?_ 0 .error (by decide)).mono fun r s' hh => ?_
      · exact ⟨h1.1, h1.2, h1.3, h1.4, h1.5⟩
      · exact ⟨hh.ok, fun hr => absurd (hh.less hr) (by omega), hh.noStatus, hh.notClosed⟩
    · refine post.bind_modify ?_
      exact ⟨⟨h1.1, h1.2, h1.3, h1.4, h1.5⟩, fun _ => hm1, (fun x hr => by cases hr),
        (fun st hr => by cases hr)⟩

theorem responseEarly_round (e : Env) (s : Conn) (h : RespOK e s) :
    post (responseEarly e) s (fun r s' => RespOK e s' ∧ (r = .ok none → respMeasure s' = respMeasure s) ∧
      (∀ x, r ≠ .error (.status x)) ∧
      ∀ st, r = .ok (some st) → s'.resp.status = .closed → s'.input.isGap = true) := by
  unfold responseEarly
  refine post.bind_state (post.ite (fun hg => responseNoteGap_round e s h hg) fun _ => ?_)
  exact ⟨h, fun _ => rfl, (fun x hr => by cases hr), (fun st hr => by cases hr)⟩

theorem respMeasure_lt_rounds (s : Conn) : respMeasure s < responseRounds s := by
  have h0 := respMeasure_le s
  unfold responseRounds
  have h1 := respRank_lt s.resp.state
  have hw : respWeight s.resp.state ≤ 2 := by cases s.resp.state <;> decide
  have h2 := Nat.mul_le_mul_right s.resp.buf.length hw
  omega

/-- The processing of a chunk ends. -/
theorem responseProcess_done (e : Env) (s : Conn) (h : RespOK e s) :
    post (responseProcess e) s (fun r s' => RespOK e s' ∧ r ≠ .ok none ∧ (∀ x, r ≠ .error (.status x)) ∧
      (∀ st, r = .ok (some st) → s'.resp.status = .closed → s'.input.isGap = true)) := by
  unfold responseProcess
  refine post.bind_state ?_
  refine post.bind ((responseEarly_round e s h).mono fun r s2 ⟨a, b, c, d⟩ => ?_)
  cases r with
  | error x =>
    refine ⟨a, (fun hh => by cases hh), fun y hh => c y (by cases hh; rfl), (fun st hh => by cases hh)⟩
  | ok o =>
    cases o with
    | some st =>
      exact ⟨a, (fun hh => by cases hh), (fun y hh => by cases hh), fun st' _ => d st rfl⟩
    | none =>
      refine (responseLoop_round e _ s2 a).mono fun r s3 ⟨h3, h4⟩ => ⟨h3.ok, h4 ?_, h3.noStatus, h3.notClosed⟩
      rw [b rfl]
      exact respMeasure_lt_rounds s

end Model

/-
The recorded length of a response body and the data handed out agree after any response call.
-/
import Verif.Lemmas.HandedRespBody

namespace Model

open M Spec

/-- They agree, whatever the current response. -/
def RespTrue (k : Nat) (s : Conn) : Prop := ∃ r, RespAgree k r s

section
variable {k r n : Nat} {e : Env}

theorem RespAgree.true (s : Conn) (h : RespAgree k r s) : RespTrue k s := ⟨r, h⟩

theorem respTrue (s : Conn) (h : RespEven k r n s) : RespTrue k s := ⟨r, n, h⟩

theorem Leads.toTrue {α : Type} {m : M α} (h : Leads (RespEven k r n) (RespAgree k r) m) : Leads (RespEven k r n) (RespTrue k) m :=
  fun s hs => ⟨r, h s hs⟩

theorem stateResponseComplete_counts (he : e.cfg.txAutoDestroy = false) (n : Nat) :
    Leads (RespEven k r n) (RespTrue k) (stateResponseComplete e) := by
  unfold stateResponseComplete
  refine Leads.bind respTrue (Keeps.responseTx RespEven.stable) fun t ht => ?_
  refine Leads.afterResp (Leads.when respAgree (completeResponse_counts e t n ht)) respTrue fun _ n => ?_
  refine Leads.bind (F := Any) respTrue (by even_walk) fun _ _ => ?_
  refine Leads.bind_state fun s1 _ => ?_
  refine Leads.bind (F := Any) respTrue (by unfold finalizeTx; even_walk <;> even_leaf) fun _ _ => ?_
  intro s h
  refine ⟨r + 1, n, ?_⟩
  have hx : (s.txs.responseNext e.cfg.txAutoDestroy) = { s.txs with response := s.txs.response + 1 } := by rw [he]; rfl
  refine ⟨?_, h.2, ?_⟩
  · show (s.txs.responseNext e.cfg.txAutoDestroy).response = _
    rw [hx]; exact congrArg (· + 1) h.1
  · refine ⟨fun t => ?_, ?_, h.3.3⟩
    · show (s.txs.responseNext e.cfg.txAutoDestroy).get k = some t → _
      rw [hx]; exact h.3.1 t
    · show (s.txs.responseNext e.cfg.txAutoDestroy).get k = none → _
      rw [hx]; exact h.3.2

theorem responseFinalizeLine_counts (he : e.cfg.txAutoDestroy = false) (w : Bytes) (n : Nat) :
    Leads (RespEven k r n) (RespTrue k) (responseFinalizeLine e w) := by
  unfold responseFinalizeLine
  refine Leads.bind_state fun s1 _ => ?_
  refine Leads.bind (F := Any) respTrue (by even_walk) fun _ _ => ?_
  refine Leads.bind (F := Any) respTrue (by even_walk; even_leaf) fun _ _ => ?_
  dsimp only
  refine Leads.ite (fun _ => stateResponseComplete_counts he n) fun _ => ?_
  refine Leads.ite (fun _ => (responseBodyData_counts e _ n).toTrue) fun _ => ?_
  refine Leads.bind (F := Any) respTrue (by even_walk; even_leaf) fun _ _ => ?_
  refine Leads.bind (F := Any) respTrue (by even_walk) fun _ _ => ?_
  exact stateResponseComplete_counts he n

theorem responseFinalize_counts (he : e.cfg.txAutoDestroy = false) (n : Nat) :
    Leads (RespEven k r n) (RespTrue k) (responseFinalize e) := by
  unfold responseFinalize
  refine Leads.bind_state fun s1 _ => ?_
  refine Leads.ite (fun _ => stateResponseComplete_counts he n) fun _ => ?_
  refine Leads.ite (fun _ => responseFinalizeLine_counts he _ n) fun _ => ?_
  split
  · exact stateResponseComplete_counts he n
  · refine Leads.ite (fun _ => ?_) fun _ => ?_
    · refine Leads.bind (F := Any) respTrue (by even_walk) fun _ _ => ?_
      exact responseFinalizeLine_counts he _ n
    · split
      · refine Leads.bind (F := Any) respTrue (by even_walk) fun _ _ => ?_
        exact responseFinalizeLine_counts he _ n
      · exact Leads.of (F := Any) respTrue (by even_walk)

theorem responseWithoutRequest_even (he : e.cfg.txAutoDestroy = false) {t : Tx} (ht : RespLen k r n t) :
    Keeps (RespEven k r n) Any (responseWithoutRequest e t) := by
  unfold responseWithoutRequest
  refine Keeps.bind (F := Any) (Keeps.putResponse RespEven.stable (ht.same rfl)) fun _ _ => ?_
  refine Keeps.modify fun s h => ?_
  have hx : (s.txs.requestNext e.cfg.txAutoDestroy) = { s.txs with request := s.txs.request + 1 } := by rw [he]; rfl
  refine ⟨?_, h.2, ?_⟩
  · show (s.txs.requestNext e.cfg.txAutoDestroy).response = _
    rw [hx]; exact h.1
  · refine ⟨fun t => ?_, ?_, h.3.3⟩
    · show (s.txs.requestNext e.cfg.txAutoDestroy).get k = some t → _
      rw [hx]; exact h.3.1 t
    · show (s.txs.requestNext e.cfg.txAutoDestroy).get k = none → _
      rw [hx]; exact h.3.2

theorem responseIdle_even (he : e.cfg.txAutoDestroy = false) : Keeps (RespEven k r n) Any (responseIdle e) := by
  unfold responseIdle
  refine Keeps.bind_state fun s1 _ => ?_
  refine Keeps.ite (fun _ => Keeps.fail) fun _ => ?_
  refine Keeps.bind (Keeps.responseTx RespEven.stable) fun t ht => ?_
  refine Keeps.bind (F := Any) (Keeps.when fun _ => responseWithoutRequest_even he ht) fun _ _ => ?_
  even_walk; even_leaf

theorem handleResponseState_counts (he : e.cfg.txAutoDestroy = false) (n : Nat) :
    Leads (RespEven k r n) (RespTrue k) (handleResponseState e) := by
  unfold handleResponseState
  refine Leads.bind_state fun s1 _ => ?_
  cases s1.resp.state with
  | idle => exact Leads.of respTrue (responseIdle_even he)
  | line => exact (responseLine_counts e n).toTrue
  | bodyChunkedData => exact (responseBodyChunkedData_counts e n).toTrue
  | bodyIdentityClKnown => exact (responseBodyIdentityClKnown_counts e n).toTrue
  | bodyIdentityStreamClose => exact (responseBodyIdentityStreamClose_counts e n).toTrue
  | finalize => exact responseFinalize_counts he n
  | _ => exact Leads.of (F := Any) respTrue (by even_walk)

/-- The same as a relation between the states before and after. -/
theorem Leads.toStays {α : Type} {m : M α} (h : ∀ r n, Leads (RespEven k r n) (RespTrue k) m) : Rel (Stays (RespTrue k)) m := by
  rintro s ⟨r, n, hs⟩
  exact h r n s hs

theorem Keeps.toStays {α : Type} {F : α → Prop} {m : M α} (h : ∀ r n, Keeps (RespEven k r n) F m) : Rel (Stays (RespTrue k)) m :=
  Leads.toStays fun r n => Leads.of respTrue (h r n)

theorem responseStep_counts (he : e.cfg.txAutoDestroy = false) : Rel (Stays (RespTrue k)) (responseStep e) := by
  unfold responseStep
  refine Rel.bind Stays.pre (Rel.state Stays.pre) fun s => ?_
  refine Rel.ite (Rel.pure Stays.pre) ?_
  refine Rel.bind Stays.pre (Rel.attempt (Leads.toStays fun r n => handleResponseState_counts he n)) fun rc => ?_
  unfold responseStepTail
  refine Rel.bind Stays.pre (Rel.state Stays.pre) fun s => ?_
  cases rc with
  | ok _ =>
    refine Rel.ite (Rel.pure Stays.pre) ?_
    exact Rel.bind Stays.pre (Rel.attempt (Keeps.toStays fun r n => responseHandleStateChange_even e))
      fun rc => Keeps.toStays fun r n => responseAfterStep_even e rc
  | error st => exact Keeps.toStays fun r n => responseAfterStep_even e _

theorem responseLoop_counts (he : e.cfg.txAutoDestroy = false) (n : Nat) : Rel (Stays (RespTrue k)) (responseLoop e n) := by
  induction n with
  | zero => exact Rel.pure Stays.pre
  | succ n ih =>
    unfold responseLoop
    refine Rel.bind Stays.pre (responseStep_counts he) fun r => ?_
    cases r with
    | some st => exact Rel.pure Stays.pre
    | none => exact ih

theorem RespTrue.other {s s' : Conn} (h : RespTrue k s) (h1 : s'.txs = s.txs) (h2 : s'.trace = s.trace)
    (h3 : s'.resp.receiver = s.resp.receiver) : RespTrue k s' := by
  obtain ⟨r, n, h⟩ := h
  exact ⟨r, n, h.other h1 h2 (.inl h3)⟩

theorem responseData_counts (he : e.cfg.txAutoDestroy = false) (c : PData) : Rel (Stays (RespTrue k)) (responseData e c) := by
  unfold responseData
  refine Rel.bind Stays.pre (fun s h => h.other rfl rfl rfl) fun _ => ?_
  refine Rel.bind Stays.pre (Rel.state Stays.pre) fun s => ?_
  refine Rel.ite (Rel.pure Stays.pre) (Rel.ite (Rel.pure Stays.pre) (Rel.ite (Rel.pure Stays.pre) ?_))
  refine Rel.bind Stays.pre (fun s h => h.other rfl rfl rfl) fun _ => ?_
  refine Rel.ite (Rel.pure Stays.pre) ?_
  unfold responseProcess responseEarly
  refine Rel.bind Stays.pre (Rel.state Stays.pre) fun s => ?_
  refine Rel.bind Stays.pre ?_ fun x => ?_
  · refine Rel.bind Stays.pre (Rel.state Stays.pre) fun s => ?_
    exact Rel.ite (Keeps.toStays fun r n => responseNoteGap_even e) (Rel.pure Stays.pre)
  · cases x with
    | some st => exact Rel.pure Stays.pre
    | none => exact responseLoop_counts he _

end

end Model

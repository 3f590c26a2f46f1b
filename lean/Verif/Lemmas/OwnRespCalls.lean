/-
The callbacks run by a call on the response side.
-/
import Verif.Lemmas.OwnResp

namespace Model

open M Spec

/-- The same, whatever the current transaction. -/
def OwnResps (old : List Event) (lo : Nat) (s : Conn) : Prop := OwnResp old lo s.txs.response s

section
variable {old : List Event} {lo r : Nat} {e : Env}

theorem OwnResp.all {s : Conn} (h : OwnResp old lo r s) : OwnResps old lo s := by
  unfold OwnResps
  rw [h.response]
  exact h

/-- The next response. -/
theorem responseNext_owns : Leads (OwnResp old lo r) (OwnResps old lo) (responseNext e) := by
  intro s h
  have hresp : (responseNext e s).2.txs.response = r + 1 := by
    show (Txs.checkFree e.cfg.txAutoDestroy s.txs s.txs.response).response + 1 = _
    rw [(checkFree_response ..).1, h.response]
  refine ⟨rfl, by rw [hresp]; exact Nat.le_succ_of_le h.2, ⟨fun i u hu => h.base.1 i u (get_checkFree hu), h.base.2, h.base.3⟩, ?_⟩
  rw [hresp]
  obtain ⟨evs, h1, h2⟩ := h.4
  refine ⟨evs, h1, fun ev hev => ?_⟩
  obtain ⟨i, h3, h4, h5⟩ := h2 ev hev
  exact ⟨i, h3, h4, by omega⟩

/-- A change that has nothing to do with the callbacks. -/
theorem OwnResps.same {s s' : Conn} (h : OwnResps old lo s) (h1 : s'.txs = s.txs) (h2 : s'.trace = s.trace)
    (h3 : s'.req.receiver = s.req.receiver) (h4 : s'.resp.receiver = s.resp.receiver) : OwnResps old lo s' := by
  unfold OwnResps
  rw [h1]
  refine ⟨by rw [h1], h.2, ⟨by rw [h1]; exact h.base.1, fun x hx => h.base.2 x (h4.symm.trans hx), receiver_ok h.base.3 h3⟩, ?_⟩
  rw [h2]
  exact h.4

theorem finalizeTx_ownResp {i : Nat} (hi : i = r) : Keeps (OwnResp old lo r) Any (finalizeTx e i) := by
  unfold finalizeTx
  keeps_walk <;> rown_leaf

theorem stateResponseComplete_owns : Leads (OwnResp old lo r) (OwnResps old lo) (stateResponseComplete e) := by
  unfold stateResponseComplete
  refine Leads.bind (fun _ => OwnResp.all) (Keeps.responseTx OwnResp.stable) fun t ht => ?_
  refine Leads.bind (F := Any) (fun _ => OwnResp.all) (Keeps.when fun _ => completeResponse_own e t ht) fun _ _ => ?_
  refine Leads.bind (F := Any) (fun _ => OwnResp.all) requestParserCheckWaiting_own fun _ _ => ?_
  refine Leads.bind_state fun s1 h1 => ?_
  refine Leads.bind (F := Any) (fun _ => OwnResp.all) (finalizeTx_ownResp h1.response) fun _ _ => ?_
  intro s h
  exact (responseNext_owns s h).same rfl rfl rfl rfl

theorem responseFinalizeLine_owns (w : Bytes) : Leads (OwnResp old lo r) (OwnResps old lo) (responseFinalizeLine e w) := by
  unfold responseFinalizeLine
  refine Leads.bind_state fun s1 h1 => ?_
  refine Leads.bind (F := Any) (fun _ => OwnResp.all) (by keeps_walk) fun _ _ => ?_
  refine Leads.bind (F := Any) (fun _ => OwnResp.all) (by keeps_walk <;> rown_leaf) fun _ _ => ?_
  refine Leads.ite (fun _ => stateResponseComplete_owns) fun _ => ?_
  refine Leads.ite (fun _ => ?_) fun _ => ?_
  · exact Leads.of (F := Any) (fun _ => OwnResp.all) (by keeps_walk)
  refine Leads.bind (F := Any) (fun _ => OwnResp.all) (by keeps_walk <;> rown_leaf) fun _ _ => ?_
  refine Leads.bind (F := Any) (fun _ => OwnResp.all) (by keeps_walk) fun _ _ => ?_
  exact stateResponseComplete_owns

theorem responseFinalize_owns : Leads (OwnResp old lo r) (OwnResps old lo) (responseFinalize e) := by
  unfold responseFinalize
  refine Leads.bind_state fun s1 h1 => ?_
  refine Leads.ite (fun _ => stateResponseComplete_owns) fun _ => ?_
  refine Leads.ite (fun _ => responseFinalizeLine_owns _) fun _ => ?_
  split
  · exact stateResponseComplete_owns
  · refine Leads.ite (fun _ => ?_) fun _ => ?_
    · refine Leads.bind (F := Any) (fun _ => OwnResp.all) (by keeps_walk) fun _ _ => ?_
      exact responseFinalizeLine_owns _
    · split
      · refine Leads.bind (F := Any) (fun _ => OwnResp.all) (by keeps_walk) fun _ _ => ?_
        exact responseFinalizeLine_owns _
      · exact Leads.of (F := Any) (fun _ => OwnResp.all) (by keeps_walk)

theorem responseWithoutRequest_own (t : Tx) (ht : t.index = r) : Keeps (OwnResp old lo r) Any (responseWithoutRequest e t) := by
  unfold responseWithoutRequest
  refine Keeps.bind (F := Any) (Keeps.putResponse OwnResp.stable ht) fun _ _ => Keeps.modify fun s h => ?_
  refine ⟨?_, h.2, ⟨fun i u hu => h.base.1 i u (get_checkFree hu), h.base.2, h.base.3⟩, h.4⟩
  show (Txs.checkFree e.cfg.txAutoDestroy s.txs s.txs.request).response = _
  rw [(checkFree_response ..).1, h.response]

/-- What is known stays so. -/
def OwnRespStep (old : List Event) (lo : Nat) (s s' : Conn) : Prop := OwnResps old lo s → OwnResps old lo s'

theorem OwnRespStep.pre : Pre (OwnRespStep old lo) := ⟨fun _ h => h, fun h1 h2 h => h2 (h1 h)⟩

theorem Keeps.ownResp {α : Type} {F : α → Prop} {m : M α} (h : ∀ r, Keeps (OwnResp old lo r) F m) : Rel (OwnRespStep old lo) m :=
  fun s hs => (h s.txs.response s hs).1.all

theorem Leads.ownResp {α : Type} {m : M α} (h : ∀ r, Leads (OwnResp old lo r) (OwnResps old lo) m) : Rel (OwnRespStep old lo) m :=
  fun s hs => h s.txs.response s hs

theorem responseIdle_own : Keeps (OwnResp old lo r) Any (responseIdle e) := by
  unfold responseIdle
  refine Keeps.bind_state fun s1 _ => ?_
  refine Keeps.ite (fun _ => Keeps.fail) fun _ => ?_
  refine Keeps.bind (Keeps.responseTx OwnResp.stable) fun t ht => ?_
  refine Keeps.bind (F := Any) (Keeps.when fun h => responseWithoutRequest_own t ht) fun _ _ => ?_
  refine Keeps.bind (F := Any) (Keeps.setResp fun _ h => h.setResp (.inl rfl)) fun _ _ => stateResponseStart_own e

theorem handleResponseState_owns : Rel (OwnRespStep old lo) (handleResponseState e) := by
  unfold handleResponseState
  refine Rel.bind OwnRespStep.pre (Rel.state OwnRespStep.pre) fun s => ?_
  cases s.resp.state with
  | idle => exact Keeps.ownResp (F := Any) fun r => responseIdle_own
  | finalize => exact Leads.ownResp fun r => responseFinalize_owns
  | _ => exact Keeps.ownResp (F := Any) fun r => by keeps_walk

theorem responseStep_owns : Rel (OwnRespStep old lo) (responseStep e) := by
  unfold responseStep
  refine Rel.bind OwnRespStep.pre (Rel.state OwnRespStep.pre) fun s => ?_
  refine Rel.ite (Rel.pure OwnRespStep.pre) ?_
  refine Rel.bind OwnRespStep.pre (Rel.attempt handleResponseState_owns) fun rc => ?_
  unfold responseStepTail
  refine Rel.bind OwnRespStep.pre (Rel.state OwnRespStep.pre) fun s => ?_
  cases rc with
  | ok _ =>
    refine Rel.ite (Rel.pure OwnRespStep.pre) ?_
    exact Rel.bind OwnRespStep.pre (Rel.attempt (Keeps.ownResp (F := Any) fun r => responseHandleStateChange_own e))
      fun rc => Keeps.ownResp (F := Any) fun r => responseAfterStep_own e rc
  | error st => exact Keeps.ownResp (F := Any) fun r => responseAfterStep_own e _

theorem responseLoop_owns (n : Nat) : Rel (OwnRespStep old lo) (responseLoop e n) := by
  induction n with
  | zero => exact Rel.pure OwnRespStep.pre
  | succ n ih =>
    unfold responseLoop
    refine Rel.bind OwnRespStep.pre responseStep_owns fun r => ?_
    cases r with
    | some st => exact Rel.pure OwnRespStep.pre
    | none => exact ih

theorem responseData_owns (c : PData) : Rel (OwnRespStep old lo) (responseData e c) := by
  unfold responseData
  refine Rel.bind OwnRespStep.pre (fun s h => h.same rfl rfl rfl rfl) fun _ => ?_
  refine Rel.bind OwnRespStep.pre (Rel.state OwnRespStep.pre) fun s => ?_
  refine Rel.ite (Rel.pure OwnRespStep.pre) (Rel.ite (Rel.pure OwnRespStep.pre) (Rel.ite (Rel.pure OwnRespStep.pre) ?_))
  refine Rel.bind OwnRespStep.pre (fun s h => h.same rfl rfl rfl rfl) fun _ => ?_
  refine Rel.ite (Rel.pure OwnRespStep.pre) ?_
  unfold responseProcess responseEarly
  refine Rel.bind OwnRespStep.pre (Rel.state OwnRespStep.pre) fun s => ?_
  refine Rel.bind OwnRespStep.pre ?_ fun x => ?_
  · refine Rel.bind OwnRespStep.pre (Rel.state OwnRespStep.pre) fun s => ?_
    exact Rel.ite (Keeps.ownResp (F := Any) fun r => responseNoteGap_own e) (Rel.pure OwnRespStep.pre)
  · cases x with
    | some st => exact Rel.pure OwnRespStep.pre
    | none => exact responseLoop_owns _

end

end Model

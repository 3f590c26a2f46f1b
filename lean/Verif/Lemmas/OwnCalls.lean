/-
The callbacks run by a call on the request side.
-/
import Verif.Lemmas.Own

namespace Model

open M Spec

/-- The same, whatever the current transaction. -/
def OwnReqs (old : List Event) (lo : Nat) (s : Conn) : Prop := OwnReq old lo s.txs.request s

theorem OwnReq.all {old : List Event} {lo r : Nat} {s : Conn} (h : OwnReq old lo r s) : OwnReqs old lo s := by
  unfold OwnReqs
  rw [h.request]
  exact h

/-- The next request. -/
theorem requestNext_owns (e : Env) {old : List Event} {lo r : Nat} : Leads (OwnReq old lo r) (OwnReqs old lo) (requestNext e) := by
  intro s h
  have hreq : (requestNext e s).2.txs.request = r + 1 := by
    show (Txs.checkFree e.cfg.txAutoDestroy s.txs s.txs.request).request + 1 = _
    rw [(checkFree_response ..).2, h.request]
  refine ⟨rfl, by rw [hreq]; exact Nat.le_succ_of_le h.2, ⟨fun i u hu => h.base.1 i u (get_checkFree hu), h.base.2, h.base.3⟩, ?_⟩
  rw [hreq]
  obtain ⟨evs, h1, h2⟩ := h.4
  refine ⟨evs, h1, fun ev hev => ?_⟩
  obtain ⟨i, h3, h4, h5⟩ := h2 ev hev
  exact ⟨i, h3, h4, by omega⟩

theorem stateRequestComplete_owns (e : Env) {old : List Event} {lo r : Nat} : Leads (OwnReq old lo r) (OwnReqs old lo) (stateRequestComplete e) := by
  unfold stateRequestComplete
  refine Leads.bind (fun _ => OwnReq.all) (Keeps.requestTx OwnReq.stable) fun t ht => ?_
  refine Leads.bind (F := Any) (fun _ => OwnReq.all) (by keeps_walk) fun _ _ => ?_
  refine Leads.bind (fun _ => OwnReq.all) (Keeps.requestTx OwnReq.stable) fun t ht => ?_
  refine Leads.bind (F := Any) (fun _ => OwnReq.all) (Keeps.setReq fun s h => h.setReq (.inl rfl)) fun _ _ => ?_
  refine Leads.bind_state fun s1 h1 => ?_
  refine Leads.bind (F := Any) (fun _ => OwnReq.all) (by keeps_walk) fun _ _ => ?_
  exact requestNext_owns e

theorem requestConnectProbeData_owns (e : Env) {old : List Event} {lo r : Nat} : Leads (OwnReq old lo r) (OwnReqs old lo) (requestConnectProbeData e) := by
  unfold requestConnectProbeData
  refine Leads.bind_state fun s1 h1 => ?_
  split
  · refine Leads.bind (F := Any) (fun _ => OwnReq.all) (by keeps_walk) fun _ _ => ?_
    refine Leads.ite (fun _ => ?_) fun _ => stateRequestComplete_owns e
    intro s h
    have h := h.all
    exact ⟨h.1, h.2, ⟨h.base.1, h.base.2, h.base.3⟩, h.4⟩
  · exact Leads.of (F := Any) (fun _ => OwnReq.all) (by keeps_walk)

theorem requestFinalizeLine_owns (e : Env) {old : List Event} {lo r : Nat} (w : Bytes) : Leads (OwnReq old lo r) (OwnReqs old lo) (requestFinalizeLine e w) := by
  unfold requestFinalizeLine
  refine Leads.bind_state fun s1 h1 => ?_
  refine Leads.bind (F := Any) (fun _ => OwnReq.all) (by keeps_walk) fun _ _ => ?_
  refine Leads.bind (F := Any) (fun _ => OwnReq.all) (by keeps_walk; own_leaf) fun _ _ => ?_
  refine Leads.ite (fun _ => stateRequestComplete_owns e) fun _ => ?_
  refine Leads.ite (fun _ => ?_) fun _ => ?_
  · exact Leads.of (F := Any) (fun _ => OwnReq.all) (by keeps_walk)
  · refine Leads.ite (fun _ => ?_) fun _ => ?_
    · refine Leads.of (F := Any) (fun _ => OwnReq.all) ?_
      keeps_walk
      own_leaf
    · refine Leads.bind (F := Any) (fun _ => OwnReq.all) (by keeps_walk; own_leaf) fun _ _ => ?_
      refine Leads.bind (F := Any) (fun _ => OwnReq.all) (by keeps_walk) fun _ _ => ?_
      exact stateRequestComplete_owns e

theorem requestFinalize_owns (e : Env) {old : List Event} {lo r : Nat} : Leads (OwnReq old lo r) (OwnReqs old lo) (requestFinalize e) := by
  unfold requestFinalize
  refine Leads.bind_state fun s1 h1 => ?_
  refine Leads.ite (fun _ => stateRequestComplete_owns e) fun _ => ?_
  refine Leads.ite (fun _ => requestFinalizeLine_owns e _) fun _ => ?_
  refine Leads.ite (fun _ => stateRequestComplete_owns e) fun _ => ?_
  split
  · refine Leads.bind (F := Any) (fun _ => OwnReq.all) (by keeps_walk) fun _ _ => ?_
    exact requestFinalizeLine_owns e _
  · exact Leads.of (F := Any) (fun _ => OwnReq.all) (by keeps_walk)

/-- What is known stays so. -/
def OwnStep (old : List Event) (lo : Nat) (s s' : Conn) : Prop := OwnReqs old lo s → OwnReqs old lo s'

section
variable {old : List Event} {lo : Nat}

theorem OwnStep.pre : Pre (OwnStep old lo) := ⟨fun _ h => h, fun h1 h2 h => h2 (h1 h)⟩

theorem Keeps.ownStep {α : Type} {F : α → Prop} {m : M α} (h : ∀ r, Keeps (OwnReq old lo r) F m) : Rel (OwnStep old lo) m :=
  fun s hs => (h s.txs.request s hs).1.all

theorem Leads.ownStep {α : Type} {m : M α} (h : ∀ r, Leads (OwnReq old lo r) (OwnReqs old lo) m) : Rel (OwnStep old lo) m :=
  fun s hs => h s.txs.request s hs

theorem handleRequestState_owns (e : Env) : Rel (OwnStep old lo) (handleRequestState e) := by
  unfold handleRequestState
  refine Rel.bind OwnStep.pre (Rel.state OwnStep.pre) fun s => ?_
  cases s.req.state with
  | finalize => exact Leads.ownStep fun r => requestFinalize_owns e
  | connectProbeData => exact Leads.ownStep fun r => requestConnectProbeData_owns e
  | _ => exact Keeps.ownStep (F := Any) fun r => by keeps_walk

theorem requestAfterStep_own {old : List Event} {lo r : Nat} (e : Env) (rc : Except Status Unit) : Keeps (OwnReq old lo r) Any (requestAfterStep e rc) := by
  unfold requestAfterStep requestReturn
  keeps_walk <;> own_leaf

theorem requestStep_owns (e : Env) : Rel (OwnStep old lo) (requestStep e) := by
  unfold requestStep
  refine Rel.bind OwnStep.pre (Rel.state OwnStep.pre) fun s => ?_
  refine Rel.ite (Rel.pure OwnStep.pre) ?_
  refine Rel.bind OwnStep.pre (Rel.attempt (handleRequestState_owns e)) fun rc => ?_
  unfold requestStepTail
  refine Rel.bind OwnStep.pre (Rel.state OwnStep.pre) fun s => ?_
  cases rc with
  | ok _ =>
    refine Rel.ite (Rel.pure OwnStep.pre) ?_
    exact Rel.bind OwnStep.pre (Rel.attempt (Keeps.ownStep (F := Any) fun r => requestHandleStateChange_own e))
      fun rc => Keeps.ownStep (F := Any) fun r => requestAfterStep_own e rc
  | error st => exact Keeps.ownStep (F := Any) fun r => requestAfterStep_own e _

theorem requestLoop_owns (e : Env) (n : Nat) : Rel (OwnStep old lo) (requestLoop e n) := by
  induction n with
  | zero => exact Rel.pure OwnStep.pre
  | succ n ih =>
    unfold requestLoop
    refine Rel.bind OwnStep.pre (requestStep_owns e) fun r => ?_
    cases r with
    | some st => exact Rel.pure OwnStep.pre
    | none => exact ih

theorem requestNoteGap_owns (e : Env) : Rel (OwnStep old lo) (requestNoteGap e) := by
  refine Keeps.ownStep (F := Any) fun r => ?_
  unfold requestNoteGap requestReturn
  refine Keeps.bind (Keeps.attempt_result (Keeps.requestTx OwnReq.stable)) fun t ht => ?_
  cases t with
  | error x => exact Keeps.pure
  | ok t =>
    have ht : t.index = r := ht t rfl
    keeps_walk
    · exact ht
    · own_leaf
    · exact ht

theorem requestData_owns (e : Env) (c : PData) : Rel (OwnStep old lo) (requestData e c) := by
  unfold requestData
  refine Rel.bind OwnStep.pre (Keeps.ownStep (F := Any) fun s0 => by keeps_walk; own_leaf) fun _ => ?_
  refine Rel.bind OwnStep.pre (Rel.state OwnStep.pre) fun s => ?_
  refine Rel.ite (Rel.pure OwnStep.pre) (Rel.ite (Rel.pure OwnStep.pre) (Rel.ite (Rel.pure OwnStep.pre) ?_))
  refine Rel.bind OwnStep.pre (Keeps.ownStep (F := Any) fun s0 => by keeps_walk; own_leaf) fun _ => ?_
  refine Rel.ite (Rel.pure OwnStep.pre) ?_
  unfold requestProcess requestEarly
  refine Rel.bind OwnStep.pre ?_ fun _ => ?_
  · intro s hs
    refine ⟨hs.1, hs.2, ⟨hs.base.1, ?_, hs.base.3⟩, hs.4⟩
    intro x hx
    refine hs.base.2 x (Eq.trans ?_ hx)
    show s.resp.receiver = (if s.resp.status = .dataOther then { s.resp with status := .data } else s.resp).receiver
    split <;> rfl
  refine Rel.bind OwnStep.pre (Rel.state OwnStep.pre) fun s => ?_
  refine Rel.bind OwnStep.pre ?_ fun x => ?_
  · refine Rel.bind OwnStep.pre (Rel.state OwnStep.pre) fun s => ?_
    exact Rel.ite (requestNoteGap_owns e) (Rel.pure OwnStep.pre)
  · cases x with
    | some st => exact Rel.pure OwnStep.pre
    | none => exact requestLoop_owns e _

end

end Model

/-
Predicates on the transactions that survive whole calls.
-/
import Verif.Lemmas.ApartResp

namespace Model

open M Spec

/-- A predicate that only looks at the transactions. -/
def OnTxs (Q : Conn → Prop) : Prop := ∀ {s s' : Conn}, Q s → s'.txs = s.txs → Q s'

/-- A predicate that only looks at the transactions and at the request parser. -/
def OnRequests (Q : Conn → Prop) : Prop := ∀ {s s' : Conn}, Q s → s'.txs = s.txs → ParserKept s.req s'.req → Q s'

theorem OnTxs.onRequests {Q : Conn → Prop} (h : OnTxs Q) : OnRequests Q := fun h1 h2 _ => h h1 h2

/-- A predicate that survives the steps of the request machine: while a request lasts, another one does that is local; the
move to the next request leads back to it. -/
def ReqWalk (e : Env) (Q : Conn → Prop) : Prop :=
  ∀ s, Q s → ∃ P F, ReqLocal P F ∧ P s ∧ (∀ s, P s → Q s) ∧ Leads P Q (requestNext e)

/-- The same for the response machine. A request that was not seen may be made up. -/
def RespWalk (e : Env) (Q : Conn → Prop) : Prop :=
  ∀ s, Q s → ∃ P F, RespLocal P F ∧ P s ∧ (∀ s, P s → Q s) ∧ Leads P Q (responseNext e) ∧
    ∀ t, F t → t.requestProgress = .notStarted → Keeps P Any (responseWithoutRequest e t)

/-- The predicate is kept. -/
def Stays (Q : Conn → Prop) (s s' : Conn) : Prop := Q s → Q s'

theorem Stays.pre {Q : Conn → Prop} : Pre (Stays Q) := ⟨fun _ h => h, fun h1 h2 h => h2 (h1 h)⟩

section
variable {e : Env} {P Q : Conn → Prop} {F : Tx → Prop}

theorem Keeps.stays {α : Type} {G : α → Prop} {m : M α} (hw : ReqWalk e Q)
    (h : ∀ {P F}, ReqLocal P F → Keeps P G m) : Rel (Stays Q) m := fun s hs => by
  obtain ⟨P, F, h1, h2, h3, -⟩ := hw s hs
  exact h3 _ (h h1 s h2).1

theorem Leads.stays {α : Type} {m : M α} (hw : ReqWalk e Q)
    (h : ∀ {P F}, ReqLocal P F → (∀ s, P s → Q s) → Leads P Q (requestNext e) → Leads P Q m) : Rel (Stays Q) m := fun s hs => by
  obtain ⟨P, F, h1, h2, h3, h4⟩ := hw s hs
  exact h h1 h3 h4 s h2

theorem stateRequestComplete_leads (hl : ReqLocal P F) (hpq : ∀ s, P s → Q s) (hn : Leads P Q (requestNext e)) :
    Leads P Q (stateRequestComplete e) := by
  unfold stateRequestComplete
  refine Leads.bind hpq (Keeps.requestTx hl.stable) fun t ht => ?_
  refine Leads.bind (F := Any) hpq (by apart_walk hl) fun _ _ => ?_
  refine Leads.bind hpq (Keeps.requestTx hl.stable) fun t ht => ?_
  refine Leads.bind (F := Any) hpq (Keeps.setReq fun s h => hl.other h rfl) fun _ _ => ?_
  refine Leads.bind_state fun s1 h1 => ?_
  exact Leads.bind (F := Any) hpq (by apart_walk hl) fun _ _ => hn

theorem requestConnectProbeData_leads (hl : ReqLocal P F) (hq : OnTxs Q) (hpq : ∀ s, P s → Q s) (hn : Leads P Q (requestNext e)) :
    Leads P Q (requestConnectProbeData e) := by
  unfold requestConnectProbeData
  refine Leads.bind_state fun s1 h1 => ?_
  split
  · refine Leads.bind (F := Any) hpq (by apart_walk hl) fun _ _ => ?_
    refine Leads.ite (fun _ => ?_) fun _ => stateRequestComplete_leads hl hpq hn
    exact fun s h => hq (hpq s h) rfl
  · exact Leads.of (F := Any) hpq (by apart_walk hl)

theorem requestFinalizeLine_leads (hl : ReqLocal P F) (hpq : ∀ s, P s → Q s) (hn : Leads P Q (requestNext e)) (w : Bytes) :
    Leads P Q (requestFinalizeLine e w) := by
  unfold requestFinalizeLine
  refine Leads.bind_state fun s1 h1 => ?_
  refine Leads.bind (F := Any) hpq (by apart_walk hl) fun _ _ => ?_
  refine Leads.bind (F := Any) hpq (by apart_walk hl <;> apart_leaf hl) fun _ _ => ?_
  refine Leads.ite (fun _ => stateRequestComplete_leads hl hpq hn) fun _ => ?_
  refine Leads.ite (fun _ => ?_) fun _ => ?_
  · exact Leads.of (F := Any) hpq (by apart_walk hl)
  · refine Leads.ite (fun _ => ?_) fun _ => ?_
    · refine Leads.of (F := Any) hpq ?_
      exact Keeps.bind (F := Any) (Keeps.setReq fun _ h => hl.other h rfl) fun _ _ => requestBodyData_local hl e _
    · refine Leads.bind (F := Any) hpq (by apart_walk hl <;> apart_leaf hl) fun _ _ => ?_
      refine Leads.bind (F := Any) hpq (by apart_walk hl) fun _ _ => ?_
      exact stateRequestComplete_leads hl hpq hn

theorem requestFinalize_leads (hl : ReqLocal P F) (hpq : ∀ s, P s → Q s) (hn : Leads P Q (requestNext e)) :
    Leads P Q (requestFinalize e) := by
  unfold requestFinalize
  refine Leads.bind_state fun s1 h1 => ?_
  refine Leads.ite (fun _ => stateRequestComplete_leads hl hpq hn) fun _ => ?_
  refine Leads.ite (fun _ => requestFinalizeLine_leads hl hpq hn _) fun _ => ?_
  refine Leads.ite (fun _ => stateRequestComplete_leads hl hpq hn) fun _ => ?_
  split
  · refine Leads.bind (F := Any) hpq (by apart_walk hl) fun _ _ => ?_
    exact requestFinalizeLine_leads hl hpq hn _
  · exact Leads.of (F := Any) hpq (by apart_walk hl)

theorem handleRequestState_stays (hw : ReqWalk e Q) (hq : OnTxs Q) : Rel (Stays Q) (handleRequestState e) := by
  unfold handleRequestState
  refine Rel.bind Stays.pre (Rel.state Stays.pre) fun s => ?_
  cases s.req.state with
  | finalize => exact Leads.stays hw fun hl => requestFinalize_leads hl
  | connectProbeData => exact Leads.stays hw fun hl => requestConnectProbeData_leads hl hq
  | _ => exact Keeps.stays (G := Any) hw fun hl => by apart_walk hl

theorem requestStep_stays (hw : ReqWalk e Q) (hq : OnTxs Q) : Rel (Stays Q) (requestStep e) := by
  unfold requestStep
  refine Rel.bind Stays.pre (Rel.state Stays.pre) fun s => ?_
  refine Rel.ite (Rel.pure Stays.pre) ?_
  refine Rel.bind Stays.pre (Rel.attempt (handleRequestState_stays hw hq)) fun rc => ?_
  unfold requestStepTail
  refine Rel.bind Stays.pre (Rel.state Stays.pre) fun s => ?_
  cases rc with
  | ok _ =>
    refine Rel.ite (Rel.pure Stays.pre) ?_
    exact Rel.bind Stays.pre (Rel.attempt (Keeps.stays (G := Any) hw fun hl => requestHandleStateChange_local hl e))
      fun rc => Keeps.stays (G := Any) hw fun hl => requestAfterStep_local hl e rc
  | error st => exact Keeps.stays (G := Any) hw fun hl => requestAfterStep_local hl e _

theorem requestLoop_stays (hw : ReqWalk e Q) (hq : OnTxs Q) (n : Nat) : Rel (Stays Q) (requestLoop e n) := by
  induction n with
  | zero => exact Rel.pure Stays.pre
  | succ n ih =>
    unfold requestLoop
    refine Rel.bind Stays.pre (requestStep_stays hw hq) fun r => ?_
    cases r with
    | some st => exact Rel.pure Stays.pre
    | none => exact ih

/-- Such a predicate survives any request call. -/
theorem requestData_stays (hw : ReqWalk e Q) (hq : OnTxs Q) (c : PData) : Rel (Stays Q) (requestData e c) := by
  unfold requestData
  refine Rel.bind Stays.pre (fun s h => hq h rfl) fun _ => ?_
  refine Rel.bind Stays.pre (Rel.state Stays.pre) fun s => ?_
  refine Rel.ite (Rel.pure Stays.pre) (Rel.ite (Rel.pure Stays.pre) (Rel.ite (Rel.pure Stays.pre) ?_))
  refine Rel.bind Stays.pre (fun s h => hq h rfl) fun _ => ?_
  refine Rel.ite (Rel.pure Stays.pre) ?_
  unfold requestProcess requestEarly
  refine Rel.bind Stays.pre (fun s h => hq h rfl) fun _ => ?_
  refine Rel.bind Stays.pre (Rel.state Stays.pre) fun s => ?_
  refine Rel.bind Stays.pre ?_ fun x => ?_
  · refine Rel.bind Stays.pre (Rel.state Stays.pre) fun s => ?_
    exact Rel.ite (Keeps.stays (G := Any) hw fun hl => requestNoteGap_local hl e) (Rel.pure Stays.pre)
  · cases x with
    | some st => exact Rel.pure Stays.pre
    | none => exact requestLoop_stays hw hq _

/-! ### The responses -/

theorem Keeps.stays' {α : Type} {G : α → Prop} {m : M α} (hw : RespWalk e Q)
    (h : ∀ {P F}, RespLocal P F → Keeps P G m) : Rel (Stays Q) m := fun s hs => by
  obtain ⟨P, F, h1, h2, h3, -⟩ := hw s hs
  exact h3 _ (h h1 s h2).1

theorem Leads.stays' {α : Type} {m : M α} (hw : RespWalk e Q)
    (h : ∀ {P F}, RespLocal P F → (∀ s, P s → Q s) → Leads P Q (responseNext e) → Leads P Q m) : Rel (Stays Q) m := fun s hs => by
  obtain ⟨P, F, h1, h2, h3, h4, -⟩ := hw s hs
  exact h h1 h3 h4 s h2

theorem stateResponseComplete_leads (hl : RespLocal P F) (hq : OnRequests Q) (hpq : ∀ s, P s → Q s) (hn : Leads P Q (responseNext e)) :
    Leads P Q (stateResponseComplete e) := by
  unfold stateResponseComplete
  refine Leads.bind hpq (Keeps.responseTx hl.stable) fun t ht => ?_
  refine Leads.bind (F := Any) hpq (by apart_walk hl) fun _ _ => ?_
  refine Leads.bind (F := Any) hpq (by apart_walk hl) fun _ _ => ?_
  refine Leads.bind_state fun s1 h1 => ?_
  refine Leads.bind (F := Any) hpq ?_ fun _ _ => ?_
  · unfold finalizeTx
    apart_walk hl <;> resp_leaf hl
  intro s h
  exact hq (hn s h) rfl rfl

theorem responseFinalizeLine_leads (hl : RespLocal P F) (hq : OnRequests Q) (hpq : ∀ s, P s → Q s) (hn : Leads P Q (responseNext e))
    (w : Bytes) : Leads P Q (responseFinalizeLine e w) := by
  unfold responseFinalizeLine
  refine Leads.bind_state fun s1 h1 => ?_
  refine Leads.bind (F := Any) hpq (by apart_walk hl) fun _ _ => ?_
  refine Leads.bind (F := Any) hpq (by apart_walk hl <;> resp_leaf hl) fun _ _ => ?_
  refine Leads.ite (fun _ => stateResponseComplete_leads hl hq hpq hn) fun _ => ?_
  refine Leads.ite (fun _ => ?_) fun _ => ?_
  · exact Leads.of (F := Any) hpq (by apart_walk hl)
  refine Leads.bind (F := Any) hpq (by apart_walk hl <;> resp_leaf hl) fun _ _ => ?_
  refine Leads.bind (F := Any) hpq (by apart_walk hl) fun _ _ => ?_
  exact stateResponseComplete_leads hl hq hpq hn

theorem responseFinalize_leads (hl : RespLocal P F) (hq : OnRequests Q) (hpq : ∀ s, P s → Q s) (hn : Leads P Q (responseNext e)) :
    Leads P Q (responseFinalize e) := by
  unfold responseFinalize
  refine Leads.bind_state fun s1 h1 => ?_
  refine Leads.ite (fun _ => stateResponseComplete_leads hl hq hpq hn) fun _ => ?_
  refine Leads.ite (fun _ => responseFinalizeLine_leads hl hq hpq hn _) fun _ => ?_
  split
  · exact stateResponseComplete_leads hl hq hpq hn
  · refine Leads.ite (fun _ => ?_) fun _ => ?_
    · refine Leads.bind (F := Any) hpq (by apart_walk hl) fun _ _ => ?_
      exact responseFinalizeLine_leads hl hq hpq hn _
    · split
      · refine Leads.bind (F := Any) hpq (by apart_walk hl) fun _ _ => ?_
        exact responseFinalizeLine_leads hl hq hpq hn _
      · exact Leads.of (F := Any) hpq (by apart_walk hl)

theorem responseIdle_stays (hw : RespWalk e Q) : Rel (Stays Q) (responseIdle e) := by
  intro s hs
  obtain ⟨P, F, hl, hp, hpq, -, hm⟩ := hw s hs
  refine hpq _ (Keeps.bind_state (G := Any) (fun s1 _ => ?_) s hp).1
  refine Keeps.ite (fun _ => Keeps.fail) fun _ => ?_
  refine Keeps.bind (Keeps.responseTx hl.stable) fun t ht => ?_
  refine Keeps.bind (F := Any) (Keeps.when fun h => hm t ht (by simpa using h)) fun _ _ => ?_
  exact Keeps.bind (F := Any) (Keeps.setResp fun _ h => hl.other h rfl rfl) fun _ _ => stateResponseStart_local hl e

theorem handleResponseState_stays (hw : RespWalk e Q) (hq : OnRequests Q) : Rel (Stays Q) (handleResponseState e) := by
  unfold handleResponseState
  refine Rel.bind Stays.pre (Rel.state Stays.pre) fun s => ?_
  cases s.resp.state with
  | idle => exact responseIdle_stays hw
  | finalize => exact Leads.stays' hw fun hl => responseFinalize_leads hl hq
  | _ => exact Keeps.stays' (G := Any) hw fun hl => by apart_walk hl

theorem responseStep_stays (hw : RespWalk e Q) (hq : OnRequests Q) : Rel (Stays Q) (responseStep e) := by
  unfold responseStep
  refine Rel.bind Stays.pre (Rel.state Stays.pre) fun s => ?_
  refine Rel.ite (Rel.pure Stays.pre) ?_
  refine Rel.bind Stays.pre (Rel.attempt (handleResponseState_stays hw hq)) fun rc => ?_
  unfold responseStepTail
  refine Rel.bind Stays.pre (Rel.state Stays.pre) fun s => ?_
  cases rc with
  | ok _ =>
    refine Rel.ite (Rel.pure Stays.pre) ?_
    exact Rel.bind Stays.pre (Rel.attempt (Keeps.stays' (G := Any) hw fun hl => responseHandleStateChange_local hl e))
      fun rc => Keeps.stays' (G := Any) hw fun hl => responseAfterStep_local hl e rc
  | error st => exact Keeps.stays' (G := Any) hw fun hl => responseAfterStep_local hl e _

theorem responseLoop_stays (hw : RespWalk e Q) (hq : OnRequests Q) (n : Nat) : Rel (Stays Q) (responseLoop e n) := by
  induction n with
  | zero => exact Rel.pure Stays.pre
  | succ n ih =>
    unfold responseLoop
    refine Rel.bind Stays.pre (responseStep_stays hw hq) fun r => ?_
    cases r with
    | some st => exact Rel.pure Stays.pre
    | none => exact ih

/-- Such a predicate survives any response call. -/
theorem responseData_stays (hw : RespWalk e Q) (hq : OnRequests Q) (c : PData) : Rel (Stays Q) (responseData e c) := by
  unfold responseData
  refine Rel.bind Stays.pre (fun s h => hq h rfl rfl) fun _ => ?_
  refine Rel.bind Stays.pre (Rel.state Stays.pre) fun s => ?_
  refine Rel.ite (Rel.pure Stays.pre) (Rel.ite (Rel.pure Stays.pre) (Rel.ite (Rel.pure Stays.pre) ?_))
  refine Rel.bind Stays.pre (fun s h => hq h rfl rfl) fun _ => ?_
  refine Rel.ite (Rel.pure Stays.pre) ?_
  unfold responseProcess responseEarly
  refine Rel.bind Stays.pre (Rel.state Stays.pre) fun s => ?_
  refine Rel.bind Stays.pre ?_ fun x => ?_
  · refine Rel.bind Stays.pre (Rel.state Stays.pre) fun s => ?_
    exact Rel.ite (Keeps.stays' (G := Any) hw fun hl => responseNoteGap_local hl e) (Rel.pure Stays.pre)
  · cases x with
    | some st => exact Rel.pure Stays.pre
    | none => exact responseLoop_stays hw hq _

end

end Model

/-
The transaction store over the operations of a connection parser.
-/
import Verif.Lemmas.Store

namespace Model

open M Spec

/-- The store stays within its limit. -/
def StoreStep (n : Nat) (s s' : Conn) : Prop := Bounded n s → Bounded n s'

theorem StoreStep.pre {n : Nat} : Pre (StoreStep n) := ⟨fun _ h => h, fun h1 h2 h => h2 (h1 h)⟩

/-- Whether there is room for the transaction `r` can be told. -/
theorem Bounded.held {n : Nat} {s : Conn} (h : Bounded n s) (sel : Txs → Nat) :
    ∃ b, Held n sel b (sel s.txs) s := by
  by_cases hr : (s.txs.get (sel s.txs)).isSome ∨ s.txs.map.length < n
  · exact ⟨true, h, rfl, fun _ => hr, fun _ => rfl⟩
  · exact ⟨false, h, rfl, fun hb => (by cases hb), fun h => absurd h hr⟩

theorem Keeps.storeStep {α : Type} {F : α → Prop} {m : M α} {n : Nat} (sel : Txs → Nat)
    (h : ∀ b r, Keeps (Held n sel b r) F m) : Rel (StoreStep n) m := by
  intro s hs
  obtain ⟨b, hb⟩ := hs.held sel
  exact (h b _ s hb).1.1

theorem Leads.storeStep {α : Type} {m : M α} {n : Nat} (sel : Txs → Nat)
    (h : ∀ b r, Leads (Held n sel b r) (Bounded n) m) : Rel (StoreStep n) m := by
  intro s hs
  obtain ⟨b, hb⟩ := hs.held sel
  exact h b _ s hb

theorem Bounded.remove {n : Nat} {s : Conn} (h : Bounded n s) (k : Nat) :
    Bounded n { s with txs := s.txs.remove k } :=
  ⟨Txs.sorted_erase _ _ h.1, Nat.le_trans (Txs.length_erase_le ..) h.2⟩

theorem Bounded.same {n : Nat} {s s' : Conn} (h : Bounded n s) (ht : s'.txs.map = s.txs.map) : Bounded n s' := by
  refine ⟨?_, ?_⟩ <;> rw [ht]
  · exact h.1
  · exact h.2

theorem Bounded.checkFree {n : Nat} {s : Conn} (h : Bounded n s) (a : Bool) (k : Nat) :
    Bounded n { s with txs := s.txs.checkFree a k } := by
  unfold Txs.checkFree
  split
  · split
    · split
      · exact h.remove k
      · exact h
    · exact h.remove k
  · exact h

theorem requestNext_store {n : Nat} (e : Env) : Rel (StoreStep n) (requestNext e) :=
  fun s h => (h.checkFree e.cfg.txAutoDestroy s.txs.request).same rfl

theorem responseNext_store {n : Nat} (e : Env) : Rel (StoreStep n) (responseNext e) :=
  fun s h => (h.checkFree e.cfg.txAutoDestroy s.txs.response).same rfl

section
variable {e : Env} {n : Nat} (hn : e.cfg.maxTx = n)
include hn

theorem stateRequestComplete_store {b : Bool} {r : Nat} :
    Leads (Held n Txs.request b r) (Bounded n) (stateRequestComplete e) := by
  unfold stateRequestComplete
  refine Leads.bind (fun _ => Held.bounded) (Held.requestTx hn) fun t ht => ?_
  refine Leads.bind (F := Any) (fun _ => Held.bounded) (by store_walk) fun _ _ => ?_
  refine Leads.bind (fun _ => Held.bounded) (Held.requestTx hn) fun t ht => ?_
  refine Leads.bind (F := Any) (fun _ => Held.bounded) (by store_walk) fun _ _ => ?_
  refine Leads.bind_state fun s1 h1 => ?_
  refine Leads.bind (F := Any) (fun _ => Held.bounded) (by store_walk) fun _ _ => ?_
  exact fun s h => requestNext_store e s h.1

theorem requestConnectProbeData_store {b : Bool} {r : Nat} :
    Leads (Held n Txs.request b r) (Bounded n) (requestConnectProbeData e) := by
  unfold requestConnectProbeData
  refine Leads.bind_state fun s1 h1 => ?_
  split
  · refine Leads.bind (F := Any) (fun _ => Held.bounded) (by store_walk) fun _ _ => ?_
    refine Leads.ite (fun _ => ?_) fun _ => stateRequestComplete_store hn
    intro s h
    exact h.1.same rfl
  · exact Leads.of (F := Any) (fun _ => Held.bounded) (by store_walk)

theorem requestFinalizeLine_store {b : Bool} {r : Nat} (w : Bytes) :
    Leads (Held n Txs.request b r) (Bounded n) (requestFinalizeLine e w) := by
  unfold requestFinalizeLine
  refine Leads.bind_state fun s1 h1 => ?_
  refine Leads.bind (F := Any) (fun _ => Held.bounded) (by store_walk) fun _ _ => ?_
  refine Leads.bind (F := Any) (fun _ => Held.bounded) (by store_walk) fun _ _ => ?_
  refine Leads.ite (fun _ => stateRequestComplete_store hn) fun _ => ?_
  refine Leads.ite (fun _ => ?_) fun _ => ?_
  · exact Leads.of (F := Any) (fun _ => Held.bounded) (by store_walk)
  · refine Leads.ite (fun _ => ?_) fun _ => ?_
    · exact Leads.of (F := Any) (fun _ => Held.bounded) (by store_walk)
    · refine Leads.bind (F := Any) (fun _ => Held.bounded) (by store_walk) fun _ _ => ?_
      refine Leads.bind (F := Any) (fun _ => Held.bounded) (by store_walk) fun _ _ => ?_
      exact stateRequestComplete_store hn

theorem requestFinalize_store {b : Bool} {r : Nat} :
    Leads (Held n Txs.request b r) (Bounded n) (requestFinalize e) := by
  unfold requestFinalize
  refine Leads.bind_state fun s1 h1 => ?_
  refine Leads.ite (fun _ => stateRequestComplete_store hn) fun _ => ?_
  refine Leads.ite (fun _ => requestFinalizeLine_store hn _) fun _ => ?_
  refine Leads.ite (fun _ => stateRequestComplete_store hn) fun _ => ?_
  split
  · refine Leads.bind (F := Any) (fun _ => Held.bounded) (by store_walk) fun _ _ => ?_
    exact requestFinalizeLine_store hn _
  · exact Leads.of (F := Any) (fun _ => Held.bounded) (by store_walk)

theorem handleRequestState_store : Rel (StoreStep n) (handleRequestState e) := by
  unfold handleRequestState
  refine Rel.bind StoreStep.pre (Rel.state StoreStep.pre) fun s => ?_
  cases s.req.state with
  | finalize => exact Leads.storeStep _ fun b r => requestFinalize_store hn
  | connectProbeData => exact Leads.storeStep _ fun b r => requestConnectProbeData_store hn
  | _ => exact Keeps.storeStep (F := Any) Txs.request fun b r => by store_walk

theorem requestAfterStep_store (rc : Except Status Unit) : Rel (StoreStep n) (requestAfterStep e rc) := by
  refine Keeps.storeStep (F := Any) Txs.request fun b r => ?_
  unfold requestAfterStep requestReturn
  store_walk

theorem requestStep_store : Rel (StoreStep n) (requestStep e) := by
  unfold requestStep
  refine Rel.bind StoreStep.pre (Rel.state StoreStep.pre) fun s => ?_
  refine Rel.ite (Rel.pure StoreStep.pre) ?_
  refine Rel.bind StoreStep.pre (Rel.attempt (handleRequestState_store hn)) fun rc => ?_
  unfold requestStepTail
  refine Rel.bind StoreStep.pre (Rel.state StoreStep.pre) fun s => ?_
  cases rc with
  | ok _ =>
    refine Rel.ite (Rel.pure StoreStep.pre) ?_
    exact Rel.bind StoreStep.pre
      (Rel.attempt (Keeps.storeStep (F := Any) Txs.request fun b r => requestHandleStateChange_held hn))
      fun rc => requestAfterStep_store hn rc
  | error st => exact requestAfterStep_store hn _

theorem requestLoop_store (k : Nat) : Rel (StoreStep n) (requestLoop e k) := by
  induction k with
  | zero => exact Rel.pure StoreStep.pre
  | succ k ih =>
    unfold requestLoop
    refine Rel.bind StoreStep.pre (requestStep_store hn) fun r => ?_
    cases r with
    | some st => exact Rel.pure StoreStep.pre
    | none => exact ih

theorem requestNoteGap_store : Rel (StoreStep n) (requestNoteGap e) := by
  refine Keeps.storeStep (F := Any) Txs.request fun b r => ?_
  unfold requestNoteGap requestReturn
  refine Keeps.bind (Keeps.attempt_result (Held.requestTx hn)) fun t ht => ?_
  cases t with
  | error x => exact Keeps.pure
  | ok t =>
    have ht : b = true := ht t rfl
    store_walk

theorem requestData_store (c : PData) : Rel (StoreStep n) (requestData e c) := by
  unfold requestData
  refine Rel.bind StoreStep.pre (fun s h => h.same rfl) fun _ => ?_
  refine Rel.bind StoreStep.pre (Rel.state StoreStep.pre) fun s => ?_
  refine Rel.ite (Rel.pure StoreStep.pre) (Rel.ite (Rel.pure StoreStep.pre) (Rel.ite (Rel.pure StoreStep.pre) ?_))
  refine Rel.bind StoreStep.pre (fun s h => h.same rfl) fun _ => ?_
  refine Rel.ite (Rel.pure StoreStep.pre) ?_
  unfold requestProcess requestEarly
  refine Rel.bind StoreStep.pre (fun s h => h.same rfl) fun _ => ?_
  refine Rel.bind StoreStep.pre (Rel.state StoreStep.pre) fun s => ?_
  refine Rel.bind StoreStep.pre ?_ fun x => ?_
  · refine Rel.bind StoreStep.pre (Rel.state StoreStep.pre) fun s => ?_
    exact Rel.ite (requestNoteGap_store hn) (Rel.pure StoreStep.pre)
  · cases x with
    | some st => exact Rel.pure StoreStep.pre
    | none => exact requestLoop_store hn _

/-! ### The responses -/

theorem stateResponseComplete_store {b : Bool} {r : Nat} :
    Leads (Held n Txs.response b r) (Bounded n) (stateResponseComplete e) := by
  unfold stateResponseComplete
  refine Leads.bind (fun _ => Held.bounded) (Held.responseTx hn) fun t ht => ?_
  refine Leads.bind (F := Any) (fun _ => Held.bounded) (by store_walk) fun _ _ => ?_
  refine Leads.bind (F := Any) (fun _ => Held.bounded) (by store_walk) fun _ _ => ?_
  refine Leads.bind_state fun s1 h1 => ?_
  refine Leads.bind (F := Any) (fun _ => Held.bounded) (by store_walk) fun _ _ => ?_
  intro s h
  exact (responseNext_store e s h.1).same rfl

theorem responseFinalizeLine_store {b : Bool} {r : Nat} (w : Bytes) :
    Leads (Held n Txs.response b r) (Bounded n) (responseFinalizeLine e w) := by
  unfold responseFinalizeLine
  refine Leads.bind_state fun s1 h1 => ?_
  refine Leads.bind (F := Any) (fun _ => Held.bounded) (by store_walk) fun _ _ => ?_
  refine Leads.bind (F := Any) (fun _ => Held.bounded) (by store_walk) fun _ _ => ?_
  refine Leads.ite (fun _ => stateResponseComplete_store hn) fun _ => ?_
  refine Leads.ite (fun _ => ?_) fun _ => ?_
  · exact Leads.of (F := Any) (fun _ => Held.bounded) (by store_walk)
  refine Leads.bind (F := Any) (fun _ => Held.bounded) (by store_walk) fun _ _ => ?_
  refine Leads.bind (F := Any) (fun _ => Held.bounded) (by store_walk) fun _ _ => ?_
  exact stateResponseComplete_store hn

theorem responseFinalize_store {b : Bool} {r : Nat} :
    Leads (Held n Txs.response b r) (Bounded n) (responseFinalize e) := by
  unfold responseFinalize
  refine Leads.bind_state fun s1 h1 => ?_
  refine Leads.ite (fun _ => stateResponseComplete_store hn) fun _ => ?_
  refine Leads.ite (fun _ => responseFinalizeLine_store hn _) fun _ => ?_
  split
  · exact stateResponseComplete_store hn
  · refine Leads.ite (fun _ => ?_) fun _ => ?_
    · refine Leads.bind (F := Any) (fun _ => Held.bounded) (by store_walk) fun _ _ => ?_
      exact responseFinalizeLine_store hn _
    · split
      · refine Leads.bind (F := Any) (fun _ => Held.bounded) (by store_walk) fun _ _ => ?_
        exact responseFinalizeLine_store hn _
      · exact Leads.of (F := Any) (fun _ => Held.bounded) (by store_walk)

theorem stateResponseStart_held {b : Bool} {r : Nat} : Keeps (Held n Txs.response b r) Any (stateResponseStart e) := by
  unfold stateResponseStart
  store_walk

theorem responseWithoutRequest_store {b : Bool} (hb : b = true) {r : Nat} (t : Tx) :
    Leads (Held n Txs.response b r) (Bounded n) (responseWithoutRequest e t) := by
  unfold responseWithoutRequest
  refine Leads.bind (F := Any) (fun _ => Held.bounded) (by store_walk) fun _ _ => ?_
  exact fun s h => requestNext_store e s h.1

theorem responseIdle_store : Rel (StoreStep n) (responseIdle e) := by
  unfold responseIdle
  refine Rel.bind StoreStep.pre (Rel.state StoreStep.pre) fun s => ?_
  refine Rel.ite (Rel.fail StoreStep.pre) ?_
  have hrest : Rel (StoreStep n) (M.setResp (fun h => { h with contentLength := none, bodyDataLeft := none }) >>=
      fun _ => stateResponseStart e) :=
    Rel.bind StoreStep.pre (fun s h => h.same rfl) fun _ =>
      Keeps.storeStep (F := Any) Txs.response fun b r => stateResponseStart_held hn
  intro s hs
  obtain ⟨b, hb⟩ := hs.held Txs.response
  refine post.bind (Q := fun _ s' => Bounded n s') ?_
  have h1 := Held.responseTx (e := e) hn (x := .status .error) s hb
  unfold post
  generalize responseTx e (.status .error) s = x at h1 ⊢
  obtain ⟨x, s1⟩ := x
  cases x with
  | error _ => exact h1.1.1
  | ok t =>
    have hbt : b = true := h1.2 t rfl
    refine post.bind (Q := fun _ s' => Bounded n s') ?_
    have h2 : Bounded n (M.when (t.requestProgress == .notStarted) (responseWithoutRequest e t) s1).2 := by
      cases t.requestProgress == .notStarted with
      | false => exact h1.1.1
      | true => exact responseWithoutRequest_store hn hbt t s1 h1.1
    unfold post
    generalize M.when (t.requestProgress == .notStarted) (responseWithoutRequest e t) s1 = x at h2 ⊢
    obtain ⟨x, s2⟩ := x
    cases x with
    | error _ => exact h2
    | ok _ => exact hrest s2 h2

theorem handleResponseState_store : Rel (StoreStep n) (handleResponseState e) := by
  unfold handleResponseState
  refine Rel.bind StoreStep.pre (Rel.state StoreStep.pre) fun s => ?_
  cases s.resp.state with
  | idle => exact responseIdle_store hn
  | finalize => exact Leads.storeStep _ fun b r => responseFinalize_store hn
  | _ => exact Keeps.storeStep (F := Any) Txs.response fun b r => by store_walk

theorem responseAfterStep_store (rc : Except Status Unit) : Rel (StoreStep n) (responseAfterStep e rc) := by
  refine Keeps.storeStep (F := Any) Txs.response fun b r => ?_
  unfold responseAfterStep responseReturn
  store_walk

theorem responseStep_store : Rel (StoreStep n) (responseStep e) := by
  unfold responseStep
  refine Rel.bind StoreStep.pre (Rel.state StoreStep.pre) fun s => ?_
  refine Rel.ite (Rel.pure StoreStep.pre) ?_
  refine Rel.bind StoreStep.pre (Rel.attempt (handleResponseState_store hn)) fun rc => ?_
  unfold responseStepTail
  refine Rel.bind StoreStep.pre (Rel.state StoreStep.pre) fun s => ?_
  cases rc with
  | ok _ =>
    refine Rel.ite (Rel.pure StoreStep.pre) ?_
    exact Rel.bind StoreStep.pre
      (Rel.attempt (Keeps.storeStep (F := Any) Txs.response fun b r => responseHandleStateChange_held hn))
      fun rc => responseAfterStep_store hn rc
  | error st => exact responseAfterStep_store hn _

theorem responseLoop_store (k : Nat) : Rel (StoreStep n) (responseLoop e k) := by
  induction k with
  | zero => exact Rel.pure StoreStep.pre
  | succ k ih =>
    unfold responseLoop
    refine Rel.bind StoreStep.pre (responseStep_store hn) fun r => ?_
    cases r with
    | some st => exact Rel.pure StoreStep.pre
    | none => exact ih

theorem responseNoteGap_store : Rel (StoreStep n) (responseNoteGap e) := by
  refine Keeps.storeStep (F := Any) Txs.response fun b r => ?_
  unfold responseNoteGap responseReturn
  refine Keeps.bind (Keeps.attempt_result (Held.responseTx hn)) fun t ht => ?_
  cases t with
  | error x => exact Keeps.pure
  | ok t =>
    have ht : b = true := ht t rfl
    store_walk

theorem responseData_store (c : PData) : Rel (StoreStep n) (responseData e c) := by
  unfold responseData
  refine Rel.bind StoreStep.pre (fun s h => h.same rfl) fun _ => ?_
  refine Rel.bind StoreStep.pre (Rel.state StoreStep.pre) fun s => ?_
  refine Rel.ite (Rel.pure StoreStep.pre) (Rel.ite (Rel.pure StoreStep.pre) (Rel.ite (Rel.pure StoreStep.pre) ?_))
  refine Rel.bind StoreStep.pre (fun s h => h.same rfl) fun _ => ?_
  refine Rel.ite (Rel.pure StoreStep.pre) ?_
  unfold responseProcess responseEarly
  refine Rel.bind StoreStep.pre (Rel.state StoreStep.pre) fun s => ?_
  refine Rel.bind StoreStep.pre ?_ fun x => ?_
  · refine Rel.bind StoreStep.pre (Rel.state StoreStep.pre) fun s => ?_
    exact Rel.ite (responseNoteGap_store hn) (Rel.pure StoreStep.pre)
  · cases x with
    | some st => exact Rel.pure StoreStep.pre
    | none => exact responseLoop_store hn _

/-! ### The operations -/

theorem flushAll_store (is : List Nat) : Rel (StoreStep n) (flushAll e is) := by
  induction is with
  | nil => exact Rel.pure StoreStep.pre
  | cons i is ih =>
    unfold flushAll flushOne
    refine Rel.bind StoreStep.pre ?_ fun _ => ih
    refine Rel.bind StoreStep.pre (Rel.attempt ?_) fun _ => ?_
    · exact Keeps.storeStep (F := Any) Txs.request fun b r => by store_walk
    · exact Rel.when StoreStep.pre fun s h => h.remove i

theorem closeConn_store : Rel (StoreStep n) (closeConn e) := by
  unfold closeConn
  refine Rel.bind StoreStep.pre (fun s h => h.same rfl) fun _ => ?_
  refine Rel.bind StoreStep.pre (requestData_store hn _) fun _ => ?_
  refine Rel.bind StoreStep.pre (responseData_store hn _) fun _ => ?_
  refine Rel.bind StoreStep.pre (Rel.state StoreStep.pre) fun s => ?_
  refine Rel.bind StoreStep.pre (Rel.when StoreStep.pre (flushAll_store hn _)) fun _ => ?_
  exact Rel.pure StoreStep.pre

omit hn in
theorem Bounded.ask {s : Conn} (h : Bounded n s) (k : Nat) :
    Bounded n { s with txs := (s.txs.entry n k).2 } := by
  rcases Txs.entry_cases n s.txs k with h1 | ⟨_, h1, h2⟩
  · rw [h1]; exact h.same rfl
  · rw [h2]; exact h.put (.inr h1) _

theorem op_store (op : Op) (s : Conn) (h : Bounded n s) : Bounded n (op.run e s).2 := by
  cases op with
  | «open» =>
    show Bounded n (if s.req.status ≠ .new ∨ s.resp.status ≠ .new then s else _)
    split
    · exact h
    · exact h.same rfl
  | request c => exact requestData_store hn _ s h
  | response c => exact responseData_store hn _ s h
  | requestClose => exact requestData_store hn {} _ (h.same rfl)
  | close =>
    have := closeConn_store hn s h
    unfold Op.run
    refine post.bind (Q := fun _ s' => Bounded n s') ?_
    unfold post
    generalize closeConn e s = x at this ⊢
    obtain ⟨r, s1⟩ := x
    cases r <;> exact this
  | removeTx i => exact h.remove i
  | askRequest => exact hn ▸ (hn ▸ h : Bounded e.cfg.maxTx s).ask _
  | askResponse => exact hn ▸ (hn ▸ h : Bounded e.cfg.maxTx s).ask _

end

theorem reachable_bounded {e : Env} {s : Conn} (h : Reachable e s) : Bounded e.cfg.maxTx s := by
  induction h with
  | new => exact ⟨List.Pairwise.nil, Nat.zero_le _⟩
  | call op r _ hr ih =>
    have := op_store rfl op _ ih
    rw [hr] at this
    exact this

end Model

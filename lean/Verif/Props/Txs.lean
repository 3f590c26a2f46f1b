/- C24, C25: the transaction store. -/
import Verif.Spec.Txs
import Verif.Lemmas.Txs
import Batteries.Data.List.Perm

namespace Props
open Model Spec

/-- What every history maintains. -/
structure StoreInv (maxTx : Nat) (s : Txs) : Prop where
  sorted : Txs.Sorted s.map
  bound : s.map.length ≤ maxTx
  index : ∀ k t, s.get k = some t → t.index = k

namespace StoreInv
variable {maxTx : Nat} {s : Txs}

theorem entry (h : StoreInv maxTx s) (k : Nat) : StoreInv maxTx (s.entry maxTx k).2 := by
  unfold Txs.entry
  split
  · exact h
  · rename_i hn
    split
    · exact h
    · rename_i hl
      refine ⟨Txs.sorted_put _ _ _ h.sorted, ?_, ?_⟩
      · show (Txs.put k _ s.map).length ≤ maxTx
        rw [Txs.length_put_of_none _ _ _ hn]
        omega
      · intro j t hj
        rw [Txs.get_set] at hj
        split at hj
        · rename_i e
          rw [← Option.some.inj hj, e]
        · exact h.index j t hj

theorem remove (h : StoreInv maxTx s) (k : Nat) : StoreInv maxTx (s.remove k) := by
  refine ⟨Txs.sorted_erase _ _ h.sorted, Nat.le_trans (Txs.length_erase_le ..) h.bound, ?_⟩
  intro j t hj
  rw [Txs.get_remove] at hj
  split at hj
  · cases hj
  · exact h.index j t hj

theorem set (h : StoreInv maxTx s) (k : Nat) (t u : Tx) (hk : s.get k = some t)
    (hu : u.index = t.index) : StoreInv maxTx (s.set k u) := by
  refine ⟨Txs.sorted_put _ _ _ h.sorted, ?_, ?_⟩
  · show (Txs.put k u s.map).length ≤ maxTx
    rw [Txs.length_put_of_some _ _ _ h.sorted]
    · exact h.bound
    · show (s.get k).isSome; rw [hk]; rfl
  · intro j v hj
    rw [Txs.get_set] at hj
    split at hj
    · rename_i e
      rw [← Option.some.inj hj, hu, e]
      exact h.index k t hk
    · exact h.index j v hj

theorem checkFree (h : StoreInv maxTx s) (auto : Bool) (k : Nat) :
    StoreInv maxTx (s.checkFree auto k) := by
  unfold Txs.checkFree
  split
  · split
    · split
      · exact h.remove k
      · exact h
    · exact h.remove k
  · exact h

theorem cursors (h : StoreInv maxTx s) (a b : Nat) :
    StoreInv maxTx { s with request := a, response := b } :=
  ⟨h.sorted, h.bound, h.index⟩

theorem apply (h : StoreInv maxTx s) (auto : Bool) (op : TxOp) (ho : op.Keeps) :
    StoreInv maxTx (op.apply maxTx auto s) := by
  cases op with
  | request => exact h.entry _
  | response => exact h.entry _
  | requestNext => exact (h.checkFree auto _).cursors _ _
  | responseNext => exact (h.checkFree auto _).cursors _ _
  | remove k => exact h.remove k
  | update k f =>
    simp only [TxOp.apply]
    split
    · rename_i t ht
      exact h.set k t _ ht (ho t)
    · exact h

end StoreInv

theorem store_inv (maxTx : Nat) (auto : Bool) (ops : List TxOp) (ho : ∀ op ∈ ops, op.Keeps) :
    StoreInv maxTx (history maxTx auto ops) := by
  have key : ∀ (ops : List TxOp) (s : Txs), StoreInv maxTx s → (∀ op ∈ ops, op.Keeps) →
      StoreInv maxTx (ops.foldl (TxOp.apply maxTx auto) s) := by
    intro ops
    induction ops with
    | nil => intro s h _; exact h
    | cons op ops ih =>
      intro s h ho
      exact ih _ (h.apply auto op (ho op (by simp))) (fun o m => ho o (by simp [m]))
  exact key ops {} ⟨by simp [Txs.Sorted], by simp, by intro k t h; simp [Txs.get, Txs.lookup] at h⟩ ho

/-- The live indices of a store with the invariant: a list of length `map.length`, and no longer one. -/
theorem StoreInv.live_le {maxTx : Nat} {s : Txs} (h : StoreInv maxTx s) (ks : List Nat)
    (hl : Live s ks) : ks.length ≤ s.map.length := by
  have hsub : ks ⊆ s.map.map (·.1) := by
    intro k hk
    exact (Txs.mem_keys_iff _ _).2 (hl.2 k hk)
  have := (List.subperm_of_subset hl.1 hsub).length_le
  simpa using this

theorem StoreInv.live_keys {maxTx : Nat} {s : Txs} (h : StoreInv maxTx s) :
    Live s (s.map.map (·.1)) := by
  refine ⟨h.sorted.imp (fun hab => Nat.ne_of_lt hab), ?_⟩
  intro k hk
  exact (Txs.mem_keys_iff _ _).1 hk

/-- C24: after every history, any repetition-free list of live transactions has at most `maxTx`
elements, and the transaction found at `k` has index `k`. -/
theorem C24_bounded (maxTx : Nat) (auto : Bool) (ops : List TxOp) (ho : ∀ op ∈ ops, op.Keeps) :
    (∀ ks, Live (history maxTx auto ops) ks → ks.length ≤ maxTx) ∧
    (∀ k t, (history maxTx auto ops).get k = some t → t.index = k) := by
  have h := store_inv maxTx auto ops ho
  exact ⟨fun ks hk => Nat.le_trans (h.live_le ks hk) h.bound, h.index⟩

/-- C24: the cursors count the calls that advance them; no other operation moves them. -/
theorem C24_cursors (maxTx : Nat) (auto : Bool) (ops : List TxOp) :
    (history maxTx auto ops).request = countRequestNext ops ∧
    (history maxTx auto ops).response = countResponseNext ops := by
  have entry : ∀ (s : Txs) k, (s.entry maxTx k).2.request = s.request ∧
      (s.entry maxTx k).2.response = s.response := by
    intro s k
    unfold Txs.entry
    split
    · exact ⟨rfl, rfl⟩
    · split <;> exact ⟨rfl, rfl⟩
  have free : ∀ (s : Txs) k, (s.checkFree auto k).request = s.request ∧
      (s.checkFree auto k).response = s.response := by
    intro s k
    unfold Txs.checkFree
    split
    · split
      · split <;> exact ⟨rfl, rfl⟩
      · exact ⟨rfl, rfl⟩
    · exact ⟨rfl, rfl⟩
  have key : ∀ (ops : List TxOp) (s : Txs),
      (ops.foldl (TxOp.apply maxTx auto) s).request = s.request + countRequestNext ops ∧
      (ops.foldl (TxOp.apply maxTx auto) s).response = s.response + countResponseNext ops := by
    intro ops
    induction ops with
    | nil => intro s; exact ⟨rfl, rfl⟩
    | cons op ops ih =>
      intro s
      rw [List.foldl_cons, (ih _).1, (ih _).2]
      cases op with
      | request =>
        exact ⟨by rw [TxOp.apply, Txs.requestMut, (entry s _).1]; rfl,
          by rw [TxOp.apply, Txs.requestMut, (entry s _).2]; rfl⟩
      | response =>
        exact ⟨by rw [TxOp.apply, Txs.responseMut, (entry s _).1]; rfl,
          by rw [TxOp.apply, Txs.responseMut, (entry s _).2]; rfl⟩
      | requestNext =>
        simp only [TxOp.apply, Txs.requestNext, countRequestNext, countResponseNext, (free s _).1,
          (free s _).2]
        exact ⟨by omega, trivial⟩
      | responseNext =>
        simp only [TxOp.apply, Txs.responseNext, countRequestNext, countResponseNext, (free s _).1,
          (free s _).2]
        exact ⟨trivial, by omega⟩
      | remove k => exact ⟨rfl, rfl⟩
      | update k f =>
        simp only [TxOp.apply, countRequestNext, countResponseNext]
        split <;> exact ⟨rfl, rfl⟩
  simpa [history] using key ops {}

/-- C24: asking for the current request transaction. If there is one it is returned and nothing
changes; otherwise a fresh one is created under the cursor, unless `maxTx` transactions are live, in
which case the answer is `none` and nothing changes. -/
theorem C24_current (maxTx : Nat) (auto : Bool) (ops : List TxOp) (ho : ∀ op ∈ ops, op.Keeps)
    (s : Txs) (hs : s = history maxTx auto ops) :
    ((s.requestMut maxTx).1 = none ↔
      s.get s.request = none ∧ ∃ ks, Live s ks ∧ ks.length = maxTx) ∧
    (∀ t, (s.requestMut maxTx).1 = some t →
      (s.get s.request = some t ∨ s.get s.request = none ∧ t = { index := s.request }) ∧
      ∀ k, (s.requestMut maxTx).2.get k = if k = s.request then some t else s.get k) ∧
    ((s.responseMut maxTx).1 = none ↔
      s.get s.response = none ∧ ∃ ks, Live s ks ∧ ks.length = maxTx) ∧
    (∀ t, (s.responseMut maxTx).1 = some t →
      (s.get s.response = some t ∨ s.get s.response = none ∧ t = { index := s.response }) ∧
      ∀ k, (s.responseMut maxTx).2.get k = if k = s.response then some t else s.get k) ∧
    ((s.requestMut maxTx).1 = none → (s.requestMut maxTx).2 = s) ∧
    ((s.responseMut maxTx).1 = none → (s.responseMut maxTx).2 = s) := by
  have h : StoreInv maxTx s := hs ▸ store_inv maxTx auto ops ho
  have full : s.map.length ≥ maxTx ↔ ∃ ks, Live s ks ∧ ks.length = maxTx := by
    constructor
    · intro hl
      refine ⟨_, h.live_keys, ?_⟩
      have := h.bound
      simp only [List.length_map]
      omega
    · rintro ⟨ks, hk, rfl⟩
      exact h.live_le ks hk
  have none_iff : ∀ k, (s.entry maxTx k).1 = none ↔
      s.get k = none ∧ ∃ ks, Live s ks ∧ ks.length = maxTx := by
    intro k
    rw [← full]
    unfold Txs.entry
    split
    · rename_i t ht; simp [ht]
    · rename_i ht
      split <;> rename_i hl
      · simp [ht, hl]
      · simp [hl]
  have some_imp : ∀ k t, (s.entry maxTx k).1 = some t →
      (s.get k = some t ∨ s.get k = none ∧ t = { index := k }) ∧
      ∀ j, (s.entry maxTx k).2.get j = if j = k then some t else s.get j := by
    intro k t
    unfold Txs.entry
    split
    · rename_i u hu
      intro he
      cases he
      refine ⟨Or.inl hu, ?_⟩
      intro j
      split
      · rename_i e; rw [e, hu]
      · rfl
    · rename_i hn
      split
      · intro he; cases he
      · intro he
        cases he
        exact ⟨Or.inr ⟨hn, rfl⟩, fun j => Txs.get_set ..⟩
  have same : ∀ k, (s.entry maxTx k).1 = none → (s.entry maxTx k).2 = s := by
    intro k
    unfold Txs.entry
    split
    · intro he; cases he
    · split
      · intro _; rfl
      · intro he; cases he
  exact ⟨none_iff _, some_imp _, none_iff _, some_imp _, same _, same _⟩

/-- A transaction both of whose sides are complete. -/
def doneTx (k : Nat) : Tx := { index := k, requestProgress := .complete, responseProgress := .complete }

/-- Case for C24: two live transactions with `maxTx = 2`; the third request gets none. -/
example :
    let ops : List TxOp := [.request, .update 0 (fun t => { t with flags := 1 }), .requestNext,
      .request, .requestNext, .responseNext]
    (∀ op ∈ ops, op.Keeps) ∧ Live (history 2 true ops) [0, 1] ∧
      ((history 2 true ops).requestMut 2).1 = none ∧ (history 2 true ops).request = 2 ∧
      ((history 2 true ops).get 0).map (·.flags) = some 1 := by
  refine ⟨?_, ?_, ?_, ?_, ?_⟩
  · simp [TxOp.Keeps]
  · unfold Live; decide +kernel
  · decide +kernel
  · decide +kernel
  · decide +kernel

/-- What freeing the transaction at `j` does. -/
theorem checkFree_get (auto : Bool) (s : Txs) (j k : Nat) :
    (s.checkFree auto j).get k =
      if auto = true ∧ k = j ∧ (∃ t, s.get k = some t ∧
          t.requestProgress = .complete ∧ t.responseProgress = .complete)
      then none else s.get k := by
  unfold Txs.checkFree
  by_cases ha : auto = true
  · simp only [ha, if_true, true_and]
    by_cases hk : k = j
    · subst hk
      cases hg : s.get k with
      | none => simp
      | some t =>
        simp only [Tx.isComplete, Bool.and_eq_true, beq_iff_eq]
        by_cases hc : t.requestProgress = .complete ∧ t.responseProgress = .complete
        · simp [hc]
        · simp [hc, hg]
    · simp only [hk, false_and, if_false]
      split
      · split <;> simp [hk]
      · simp [hk]
  · simp [ha]

/-- C25: advancing the request cursor removes the transaction it leaves exactly when auto-destroy is
on and both its sides are complete; every other transaction stays. -/
theorem C25_request_next (auto : Bool) (s : Txs) (k : Nat) :
    (s.requestNext auto).get k =
      if auto = true ∧ k = s.request ∧ (∃ t, s.get k = some t ∧
          t.requestProgress = .complete ∧ t.responseProgress = .complete)
      then none else s.get k := checkFree_get auto s s.request k

/-- C25: the same for the response cursor. -/
theorem C25_response_next (auto : Bool) (s : Txs) (k : Nat) :
    (s.responseNext auto).get k =
      if auto = true ∧ k = s.response ∧ (∃ t, s.get k = some t ∧
          t.requestProgress = .complete ∧ t.responseProgress = .complete)
      then none else s.get k := checkFree_get auto s s.response k

/-- C25: without auto-destroy a live transaction stays live, whatever the history, unless the user
removes it. -/
theorem C25_nothing_lost (maxTx : Nat) (ops : List TxOp) (s : Txs) (k : Nat)
    (hk : (s.get k).isSome) (hr : ∀ op ∈ ops, op ≠ .remove k) :
    ((ops.foldl (TxOp.apply maxTx false) s).get k).isSome := by
  induction ops generalizing s with
  | nil => exact hk
  | cons op ops ih =>
    refine ih _ ?_ (fun o m => hr o (by simp [m]))
    have entry : ∀ j, ((s.entry maxTx j).2.get k).isSome := by
      intro j
      unfold Txs.entry
      split
      · exact hk
      · split
        · exact hk
        · rw [Txs.get_set]; split
          · rfl
          · exact hk
    cases op with
    | request => exact entry _
    | response => exact entry _
    | requestNext => rw [TxOp.apply, C25_request_next]; simpa using hk
    | responseNext => rw [TxOp.apply, C25_response_next]; simpa using hk
    | remove j =>
      have : k ≠ j := by rintro rfl; exact hr (.remove k) (by simp) rfl
      rw [TxOp.apply, Txs.get_remove, if_neg this]; exact hk
    | update j f =>
      simp only [TxOp.apply]
      split
      · rw [Txs.get_set]; split
        · rfl
        · exact hk
      · exact hk

/-- Case for C25: the complete transaction is dropped, the incomplete one is kept. -/
example :
    let s : Txs := { request := 3, response := 4, map := [(3, doneTx 3), (4, { index := 4 })] }
    (s.requestNext true).get 3 = none ∧ (s.requestNext false).get 3 = some (doneTx 3) ∧
      (s.responseNext true).get 4 = some { index := 4 } := by decide +kernel

end Props

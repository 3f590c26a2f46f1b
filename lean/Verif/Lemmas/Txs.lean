/- Lemmas about the transaction store. -/
import Verif.Model.Transactions

namespace Model.Txs

theorem lookup_cons (i j : Nat) (u : Tx) (m : List (Nat × Tx)) :
    lookup ((i, u) :: m) j = if j = i then some u else lookup m j := by
  unfold lookup
  rw [List.lookup_cons]
  by_cases h : j = i
  · simp [h]
  · have : (j == i) = false := by simpa using h
    rw [this]; simp [h]

theorem lookup_put (k j : Nat) (t : Tx) (m : List (Nat × Tx)) :
    lookup (put k t m) j = if j = k then some t else lookup m j := by
  induction m with
  | nil => rw [put, lookup_cons]
  | cons p m ih =>
    obtain ⟨i, u⟩ := p
    simp only [put]
    split
    · rw [lookup_cons]
    · split
      · rename_i h1 h2
        subst h2
        simp only [lookup_cons]
        by_cases h : j = k <;> simp [h]
      · simp only [lookup_cons, ih]
        by_cases h : j = i
        · subst h
          have : ¬ j = k := by omega
          simp [this]
        · simp [h]

theorem lookup_erase (k j : Nat) (m : List (Nat × Tx)) :
    lookup (erase k m) j = if j = k then none else lookup m j := by
  induction m with
  | nil => simp [erase, lookup]
  | cons p m ih =>
    obtain ⟨i, u⟩ := p
    simp only [erase] at ih
    simp only [erase, List.filter_cons]
    by_cases hi : i = k
    · subst hi
      simp only [bne_self_eq_false, Bool.false_eq_true, if_false, ih, lookup_cons]
      by_cases h : j = i <;> simp [h]
    · simp only [bne_iff_ne, ne_eq, hi, not_false_eq_true, if_true, lookup_cons, ih]
      by_cases h : j = i
      · subst h; simp [hi]
      · simp [h]

/-- Keys in strictly increasing order. -/
def Sorted (m : List (Nat × Tx)) : Prop := (m.map (·.1)).Pairwise (· < ·)

theorem keys_put (k : Nat) (t : Tx) (m : List (Nat × Tx)) (j : Nat) :
    j ∈ (put k t m).map (·.1) ↔ j = k ∨ j ∈ m.map (·.1) := by
  induction m with
  | nil => simp [put]
  | cons p m ih =>
    obtain ⟨i, u⟩ := p
    simp only [put]
    split
    · simp
    · split
      · rename_i h1 h2
        subst h2
        simp
      · simp only [List.map_cons, List.mem_cons, ih]
        constructor
        · rintro (h | h | h) <;> simp [h]
        · rintro (h | h | h) <;> simp [h]

theorem sorted_put (k : Nat) (t : Tx) (m : List (Nat × Tx)) (h : Sorted m) : Sorted (put k t m) := by
  induction m with
  | nil => simp [put, Sorted]
  | cons p m ih =>
    obtain ⟨i, u⟩ := p
    simp only [Sorted, List.map_cons, List.pairwise_cons] at h ih ⊢
    obtain ⟨h1, h2⟩ := h
    simp only [put]
    split
    · rename_i hlt
      simp only [List.map_cons, List.pairwise_cons, List.mem_cons]
      refine ⟨?_, h1, h2⟩
      rintro a (rfl | ha)
      · exact hlt
      · exact Nat.lt_trans hlt (h1 a ha)
    · split
      · rename_i _ he
        subst he
        simp only [List.map_cons, List.pairwise_cons]
        exact ⟨h1, h2⟩
      · rename_i hlt hne
        simp only [List.map_cons, List.pairwise_cons]
        refine ⟨?_, ih h2⟩
        intro a ha
        rcases (keys_put k t m a).1 ha with rfl | ha
        · omega
        · exact h1 a ha

theorem sorted_erase (k : Nat) (m : List (Nat × Tx)) (h : Sorted m) : Sorted (erase k m) := by
  unfold Sorted erase at *
  exact List.Pairwise.sublist (List.Sublist.map _ List.filter_sublist) h

theorem mem_keys_iff (m : List (Nat × Tx)) (k : Nat) : k ∈ m.map (·.1) ↔ (lookup m k).isSome := by
  induction m with
  | nil => simp [lookup]
  | cons p m ih =>
    obtain ⟨i, u⟩ := p
    rw [List.map_cons, List.mem_cons, lookup_cons, ih]
    by_cases h : k = i <;> simp [h]

theorem length_put_of_none (k : Nat) (t : Tx) (m : List (Nat × Tx)) (h : lookup m k = none) :
    (put k t m).length = m.length + 1 := by
  induction m with
  | nil => simp [put]
  | cons p m ih =>
    obtain ⟨i, u⟩ := p
    rw [lookup_cons] at h
    have hne : k ≠ i := by rintro rfl; simp at h
    rw [if_neg hne] at h
    simp only [put]
    split
    · simp
    · simp only [List.length_cons]
      rw [ih h]

theorem length_put_of_some (k : Nat) (t : Tx) (m : List (Nat × Tx)) (hs : Sorted m)
    (h : (lookup m k).isSome) : (put k t m).length = m.length := by
  induction m with
  | nil => simp [lookup] at h
  | cons p m ih =>
    obtain ⟨i, u⟩ := p
    simp only [Sorted, List.map_cons, List.pairwise_cons] at hs ih
    simp only [put]
    split
    · rename_i hlt
      exfalso
      rw [← mem_keys_iff, List.map_cons, List.mem_cons] at h
      rcases h with rfl | h
      · exact Nat.lt_irrefl _ hlt
      · exact Nat.lt_asymm hlt (hs.1 k h)
    · split
      · simp
      · rename_i hne
        simp only [List.length_cons]
        rw [ih hs.2]
        rw [← mem_keys_iff, List.map_cons, List.mem_cons] at h
        rw [← mem_keys_iff]
        exact h.resolve_left hne

theorem length_erase_le (k : Nat) (m : List (Nat × Tx)) : (erase k m).length ≤ m.length :=
  List.length_filter_le ..

@[simp] theorem get_set (s : Txs) (k j : Nat) (t : Tx) :
    (s.set k t).get j = if j = k then some t else s.get j := lookup_put ..
@[simp] theorem get_remove (s : Txs) (k j : Nat) :
    (s.remove k).get j = if j = k then none else s.get j := lookup_erase ..
@[simp] theorem set_request (s : Txs) (k : Nat) (t : Tx) : (s.set k t).request = s.request := rfl
@[simp] theorem set_response (s : Txs) (k : Nat) (t : Tx) : (s.set k t).response = s.response := rfl
@[simp] theorem remove_request (s : Txs) (k : Nat) : (s.remove k).request = s.request := rfl
@[simp] theorem remove_response (s : Txs) (k : Nat) : (s.remove k).response = s.response := rfl

/-- Asking for a transaction leaves the store as it is, or creates a new one. -/
theorem entry_cases (n : Nat) (s : Txs) (k : Nat) : (s.entry n k).2 = s ∨
    s.get k = none ∧ s.map.length < n ∧ (s.entry n k).2 = s.set k { index := k } := by
  unfold entry
  cases s.get k with
  | some t => exact .inl rfl
  | none =>
    dsimp only
    split
    · exact .inl rfl
    · next h => exact .inr ⟨rfl, by omega, rfl⟩

end Model.Txs

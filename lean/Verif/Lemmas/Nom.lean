/-
Helper lemmas: what the nom combinators compute.
-/
import Verif.Lemmas.Span
import Verif.Lemmas.Bstr
import Verif.Spec.Text

namespace Model
open Nom Spec

theorem agrees_id_prefix : ∀ (i t : Bytes), t.length ≤ i.length →
    (agrees id i t = true ↔ t = i.take t.length) := by
  intro i
  induction i with
  | nil => intro t h; have : t = [] := (by simpa using h); subst this; simp [agrees]
  | cons a i ih =>
    intro t h
    cases t with
    | nil => simp [agrees]
    | cons b t =>
      simp only [List.length_cons] at h
      simp only [agrees, id_eq, Bool.and_eq_true, beq_iff_eq, List.length_cons, List.take_succ_cons,
        List.cons.injEq, ih t (by omega)]
      constructor
      · rintro ⟨h1, h2⟩; exact ⟨h1.symm, h2⟩
      · rintro ⟨h1, h2⟩; exact ⟨h1.symm, h2⟩

theorem agrees_lower_prefix : ∀ (i t : Bytes), t.length ≤ i.length →
    (agrees lower i t = true ↔ t.map lower = (i.take t.length).map lower) := by
  intro i
  induction i with
  | nil => intro t h; have : t = [] := (by simpa using h); subst this; simp [agrees]
  | cons a i ih =>
    intro t h
    cases t with
    | nil => simp [agrees]
    | cons b t =>
      simp only [List.length_cons] at h
      simp only [agrees, Bool.and_eq_true, beq_iff_eq, List.length_cons, List.take_succ_cons,
        List.map_cons, List.cons.injEq, ih t (by omega)]
      constructor
      · rintro ⟨h1, h2⟩; exact ⟨h1.symm, h2⟩
      · rintro ⟨h1, h2⟩; exact ⟨h1.symm, h2⟩

theorem tag_append (t r : Bytes) : tag t (t ++ r) = .ok r t := by
  have h : agrees id (t ++ r) t = true := by rw [agrees_id_prefix] <;> simp
  simp [tag, h]

theorem tag_ok_iff (t i r v : Bytes) : tag t i = .ok r v ↔ i = t ++ r ∧ v = t := by
  constructor
  · intro h
    unfold tag at h
    split at h
    · rename_i hc
      simp only [Bool.and_eq_true, decide_eq_true_eq] at hc
      obtain ⟨h1, h2⟩ := hc
      rw [agrees_id_prefix _ _ h2] at h1
      injection h with h3 h4
      rw [← h1] at h4
      subst h3; subst h4
      refine ⟨?_, rfl⟩
      conv => lhs; rw [← List.take_append_drop t.length i]
      rw [← h1]
    · simp at h
  · rintro ⟨rfl, rfl⟩; exact tag_append _ _

theorem tag_err_iff (t i : Bytes) : tag t i = .err ↔ ¬ t <+: i := by
  constructor
  · rintro h ⟨r, rfl⟩; rw [tag_append] at h; simp at h
  · intro h
    unfold tag
    split
    · rename_i hc
      simp only [Bool.and_eq_true, decide_eq_true_eq] at hc
      rw [agrees_id_prefix _ _ hc.2] at hc
      exact absurd (List.prefix_iff_eq_take.mpr hc.1) h
    · rfl

theorem tagNoCase_ok_iff (t i r v : Bytes) :
    tagNoCase t i = .ok r v ↔ i = v ++ r ∧ EqNocase v t := by
  rw [← eqNocase_map]
  constructor
  · intro h
    unfold tagNoCase at h
    split at h
    · rename_i hc
      simp only [Bool.and_eq_true, decide_eq_true_eq] at hc
      obtain ⟨h1, h2⟩ := hc
      rw [agrees_lower_prefix _ _ h2] at h1
      injection h with h3 h4
      subst h3; subst h4
      exact ⟨(List.take_append_drop t.length i).symm, h1.symm⟩
    · simp at h
  · rintro ⟨rfl, h⟩
    have hl : v.length = t.length := by simpa using congrArg List.length h
    have hc : agrees lower (v ++ r) t = true := by
      rw [agrees_lower_prefix _ _ (by simp; omega), ← hl, List.take_left, h]
    simp [tagNoCase, hc, ← hl]

theorem takeUntil_go_single (b : UInt8) : ∀ (i pre : Bytes), takeUntil.go [b] pre i =
    if b ∈ i then .ok (i.dropWhile (fun c => c != b)) (pre.reverse ++ i.takeWhile (fun c => c != b))
    else .err := by
  intro i
  induction i with
  | nil => intro pre; simp [takeUntil.go]
  | cons c i ih =>
    intro pre
    simp only [takeUntil.go]
    by_cases hc : b = c
    · subst hc; simp [List.isPrefixOf]
    · have h1 : ([b].isPrefixOf (c :: i)) = false := by simp [List.isPrefixOf, hc]
      have h2 : (c != b) = true := by simp [Ne.symm hc]
      rw [if_neg (by simp [h1]), ih]
      simp [hc, h2]

/-- `take_until` of a single byte splits at its first occurrence. -/
theorem takeUntil_single (b : UInt8) (i : Bytes) : takeUntil [b] i =
    if b ∈ i then .ok (i.dropWhile (fun c => c != b)) (i.takeWhile (fun c => c != b)) else .err := by
  rw [takeUntil, takeUntil_go_single]; simp

/-- `take_until` succeeds exactly when the text occurs. -/
theorem takeUntil_go_isOk (t : Bytes) : ∀ (i pre : Bytes),
    (∃ r v, takeUntil.go t pre i = .ok r v) ↔ t <:+: i := by
  intro i
  induction i with
  | nil =>
    intro pre
    simp only [takeUntil.go, List.isPrefixOf_iff_prefix]
    split
    · rename_i h; simp [h.isInfix]
    · rename_i h; simp only [reduceCtorEq, exists_false, false_iff]
      intro h'; exact h (by simpa using h')
  | cons c i ih =>
    intro pre
    simp only [takeUntil.go, List.isPrefixOf_iff_prefix]
    split
    · rename_i h; simp [h.isInfix]
    · rename_i h; rw [ih, List.infix_cons_iff]; simp [h]

theorem takeUntil_isOk (t i : Bytes) : (∃ r v, takeUntil t i = .ok r v) ↔ t <:+: i :=
  takeUntil_go_isOk t i []

/-- First occurrence: what `take_until` returns. -/
theorem takeUntil_go_ok (t : Bytes) : ∀ (i pre r v : Bytes), takeUntil.go t pre i = .ok r v →
    ∃ w, v = pre.reverse ++ w ∧ i = w ++ r ∧ t <+: r ∧ ∀ w', w' <+: w → w' ≠ w → ¬ t <+: i.drop w'.length := by
  intro i
  induction i with
  | nil =>
    intro pre r v h
    simp only [takeUntil.go, List.isPrefixOf_iff_prefix] at h
    split at h
    · rename_i hp; injection h with h1 h2; subst h1; subst h2
      exact ⟨[], by simp, by simp, hp, by intro w' hw hn; exact absurd (by simpa using hw) hn⟩
    · simp at h
  | cons c i ih =>
    intro pre r v h
    simp only [takeUntil.go, List.isPrefixOf_iff_prefix] at h
    split at h
    · rename_i hp; injection h with h1 h2; subst h1; subst h2
      exact ⟨[], by simp, by simp, hp, by intro w' hw hn; exact absurd (by simpa using hw) hn⟩
    · rename_i hp
      obtain ⟨w, h1, h2, h3, h4⟩ := ih _ _ _ h
      refine ⟨c :: w, by simp [h1], by simp [h2], h3, ?_⟩
      intro w' hw hn
      cases w' with
      | nil => simpa using hp
      | cons d w' =>
        obtain ⟨x, hx⟩ := hw
        simp only [List.cons_append, List.cons.injEq] at hx
        obtain ⟨rfl, hx⟩ := hx
        simp only [List.length_cons, List.drop_succ_cons]
        exact h4 w' ⟨x, hx⟩ (by intro e; exact hn (by rw [e]))

theorem takeUntil_ok (t i r v : Bytes) (h : takeUntil t i = .ok r v) :
    i = v ++ r ∧ t <+: r ∧ ∀ w', w' <+: v → w' ≠ v → ¬ t <+: i.drop w'.length := by
  obtain ⟨w, h1, h2, h3, h4⟩ := takeUntil_go_ok t i [] r v h
  simp at h1; subst h1
  exact ⟨h2, h3, h4⟩

/-! ### splitting and joining -/

theorem splitOn_ne_nil (sep : UInt8) (s : Bytes) : splitOn sep s ≠ [] := by
  cases s with
  | nil => simp [splitOn]
  | cons c cs =>
    simp only [splitOn]
    split
    · simp
    · split <;> simp

theorem splitOn_cons_ne {sep c : UInt8} (cs : Bytes) (h : c ≠ sep) :
    ∃ seg rest, splitOn sep cs = seg :: rest ∧ splitOn sep (c :: cs) = (c :: seg) :: rest := by
  cases hs : splitOn sep cs with
  | nil => exact absurd hs (splitOn_ne_nil sep cs)
  | cons seg rest => exact ⟨seg, rest, rfl, by simp [splitOn, h, hs]⟩

theorem join_splitOn (sep : UInt8) : ∀ s, join sep (splitOn sep s) = s := by
  intro s
  induction s with
  | nil => rfl
  | cons c cs ih =>
    by_cases h : c = sep
    · subst h
      simp only [splitOn, if_true]
      cases hs : splitOn c cs with
      | nil => exact absurd hs (splitOn_ne_nil c cs)
      | cons a b => rw [hs] at ih; simp [join, ih]
    · obtain ⟨seg, rest, h1, h2⟩ := splitOn_cons_ne cs h
      rw [h2]
      rw [h1] at ih
      cases rest with
      | nil => simpa [join] using ih
      | cons r rest => simp only [join, List.cons_append] at ih ⊢; rw [ih]

theorem splitOn_no_sep (sep : UInt8) : ∀ s, ∀ p ∈ splitOn sep s, sep ∉ p := by
  intro s
  induction s with
  | nil => simp [splitOn]
  | cons c cs ih =>
    by_cases h : c = sep
    · subst h
      simp only [splitOn, if_true, List.mem_cons]
      rintro p (rfl | hp)
      · simp
      · exact ih p hp
    · obtain ⟨seg, rest, h1, h2⟩ := splitOn_cons_ne cs h
      rw [h2]
      intro p hp
      rw [List.mem_cons] at hp
      rcases hp with rfl | hp
      · have := ih seg (by rw [h1]; simp)
        simp [Ne.symm h, this]
      · exact ih p (by rw [h1]; simp [hp])

theorem splitOn_append_sep (sep : UInt8) (r : Bytes) : ∀ p, sep ∉ p →
    splitOn sep (p ++ sep :: r) = p :: splitOn sep r := by
  intro p
  induction p with
  | nil => intro _; simp [splitOn]
  | cons c p ih =>
    intro h
    simp only [List.mem_cons, not_or] at h
    have hc : c ≠ sep := Ne.symm h.1
    simp [splitOn, hc, ih h.2]

theorem splitOn_of_no_sep (sep : UInt8) : ∀ p, sep ∉ p → splitOn sep p = [p] := by
  intro p
  induction p with
  | nil => intro _; rfl
  | cons c p ih =>
    intro h
    simp only [List.mem_cons, not_or] at h
    have hc : c ≠ sep := Ne.symm h.1
    simp [splitOn, hc, ih h.2]

theorem splitOn_join (sep : UInt8) : ∀ l : List Bytes, l ≠ [] → (∀ p ∈ l, sep ∉ p) →
    splitOn sep (join sep l) = l := by
  intro l
  induction l with
  | nil => intro h; exact absurd rfl h
  | cons a l ih =>
    intro _ h
    cases l with
    | nil => exact splitOn_of_no_sep sep a (h a (by simp))
    | cons b l =>
      simp only [join]
      rw [splitOn_append_sep sep _ a (h a (by simp)), ih (by simp) (fun p hp => h p (by simp [hp]))]

end Model

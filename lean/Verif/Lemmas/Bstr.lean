/-
Helper lemmas for byte string comparison and search.
-/
import Verif.Model.Bstr
import Verif.Spec.Nocase

namespace Model
open Spec

theorem lower_toNat (a : UInt8) : (lower a).toNat =
    if 65 ≤ a.toNat ∧ a.toNat ≤ 90 then a.toNat + 32 else a.toNat := by
  revert a; decide +kernel

theorem lower_eq_iff (a b : UInt8) : lower a = lower b ↔ SameNocase a b := by
  rw [← UInt8.toNat_inj, lower_toNat, lower_toNat]
  unfold SameNocase
  rw [← UInt8.toNat_inj (a := a)]
  split <;> split <;> omega

theorem lower_eq_zero : ∀ a : UInt8, lower a = 0 ↔ a = 0 := by decide +kernel

theorem lower_lower : ∀ a : UInt8, lower (lower a) = lower a := by decide +kernel

theorem iterCmp_eq : ∀ s t : Bytes, iterCmp s t = .eq ↔ s = t := by
  intro s
  induction s with
  | nil => intro t; cases t <;> simp [iterCmp]
  | cons a s ih =>
    intro t
    cases t with
    | nil => simp [iterCmp]
    | cons b t =>
      simp only [iterCmp]
      split
      · rename_i h
        simp only [reduceCtorEq, List.cons.injEq, false_iff, not_and]
        intro hab; subst hab; exact absurd h (UInt8.lt_irrefl a)
      · split
        · rename_i h; simp [ih, h]
        · rename_i h; simp [h]

theorem iterCmp_swap : ∀ s t : Bytes, iterCmp t s = (iterCmp s t).swap := by
  intro s
  induction s with
  | nil => intro t; cases t <;> simp [iterCmp]
  | cons a s ih =>
    intro t
    cases t with
    | nil => simp [iterCmp]
    | cons b t =>
      simp only [iterCmp, ih t]
      have tri : ∀ a b : UInt8, ¬ a < b → a ≠ b → b < a := by
        intro a b h1 h2
        have h2' : a.toNat ≠ b.toNat := fun h => h2 (UInt8.toNat_inj.mp h)
        rw [UInt8.lt_iff_toNat_lt] at *
        omega
      have asym : ∀ a b : UInt8, a < b → ¬ b < a := by
        intro a b h1
        rw [UInt8.lt_iff_toNat_lt] at *
        omega
      by_cases h1 : a < b
      · have h2 : a ≠ b := by intro h; subst h; exact UInt8.lt_irrefl a h1
        simp [h1, asym a b h1, Ne.symm h2]
      · by_cases h2 : a = b
        · subst h2; simp [h1]
        · have h3 := tri a b h1 h2
          simp [h1, h2, h3]

theorem iterCmp_lt_trans : ∀ s t u : Bytes, iterCmp s t = .lt → iterCmp t u = .lt →
    iterCmp s u = .lt := by
  intro s
  induction s with
  | nil =>
    intro t u h1 h2
    cases t <;> cases u <;> simp_all [iterCmp]
  | cons a s ih =>
    intro t u h1 h2
    cases t with
    | nil => simp [iterCmp] at h1
    | cons b t =>
      cases u with
      | nil => simp [iterCmp] at h2
      | cons c u =>
        simp only [iterCmp] at h1 h2 ⊢
        have tr : a < b → b < c → a < c := by
          intro h1 h2
          rw [UInt8.lt_iff_toNat_lt] at *
          omega
        by_cases hab : a < b
        · by_cases hbc : b < c
          · simp [tr hab hbc]
          · by_cases hbc' : b = c
            · subst hbc'; simp [hab]
            · simp [hbc, hbc'] at h2
        · by_cases hab' : a = b
          · subst hab'
            by_cases hbc : a < c
            · simp [hbc]
            · by_cases hbc' : a = c
              · subst hbc'
                simp at h1 h2 ⊢
                exact ih t u h1 h2
              · simp [hbc, hbc'] at h2
          · simp [hab, hab'] at h1

/-! ### A common view of both iterators -/

/-- Positions and lower-cased values of the bytes that satisfy `keep`. -/
def items (keep : UInt8 → Bool) : Nat → Bytes → List (Nat × UInt8)
  | _, [] => []
  | i, c :: cs => if keep c then (i, lower c) :: items keep (i + 1) cs else items keep (i + 1) cs

theorem items_length (keep : UInt8 → Bool) : ∀ (s : Bytes) (i : Nat),
    (items keep i s).length ≤ s.length := by
  intro s
  induction s with
  | nil => intro i; simp [items]
  | cons c s ih =>
    intro i
    simp only [items]
    have := ih (i + 1)
    split <;> simp <;> omega

theorem items_values (keep : UInt8 → Bool) : ∀ (s : Bytes) (i : Nat),
    (items keep i s).map Prod.snd = (s.filter keep).map lower := by
  intro s
  induction s with
  | nil => intro i; simp [items]
  | cons c s ih =>
    intro i
    simp only [items, List.filter_cons]
    split <;> simp [ih]

/-- What an iterator state still has to yield. -/
def Iter.rest (keep : UInt8 → Bool) (it : Iter) : List (Nat × UInt8) :=
  let k := if it.first then it.idx else it.idx + 1
  items keep k (it.src.drop k)

/-- `next` walks through `rest`. -/
structure Walks (keep : UInt8 → Bool) (next : Iter → Option UInt8 × Iter) : Prop where
  stop : ∀ it, it.rest keep = [] → (next it).1 = none
  step : ∀ it i c tl, it.rest keep = (i, c) :: tl →
    (next it).1 = some c ∧ (next it).2.idx = i ∧ (next it).2.rest keep = tl ∧
      (next it).2.subiter.rest keep = (i, c) :: tl

theorem walks_next : Walks (fun _ => true) Iter.next := by
  constructor
  · intro it h
    simp only [Iter.rest] at h
    simp only [Iter.next]
    generalize (if it.first = true then it.idx else it.idx + 1) = k at *
    cases hd : it.src.drop k with
    | nil =>
      have : it.src.length ≤ k := by
        have := congrArg List.length hd; simp at this; omega
      simp [List.getElem?_eq_none this]
    | cons c tl => rw [hd] at h; simp [items] at h
  · intro it i c tl h
    simp only [Iter.rest] at h
    simp only [Iter.next, Iter.rest, Iter.subiter]
    generalize (if it.first = true then it.idx else it.idx + 1) = k at *
    cases hd : it.src.drop k with
    | nil => rw [hd] at h; simp [items] at h
    | cons d ds =>
      have hk : it.src[k]? = some d := by
        have := congrArg (fun l => l[0]?) hd
        simpa using this
      have hk1 : it.src.drop (k + 1) = ds := by
        have := congrArg List.tail hd
        simpa [List.tail_drop] using this
      rw [hd] at h
      simp only [items, if_true] at h
      injection h with h1 h2
      injection h1 with h1 h3
      subst h1; subst h3
      simp [hk, hk1, hd, items, h2]

theorem skipZeros_spec (src : Bytes) (k : Nat) :
    items (· != 0) k (src.drop k) =
      match src[skipZeros src k]? with
      | none => []
      | some c => (skipZeros src k, lower c) ::
          items (· != 0) (skipZeros src k + 1) (src.drop (skipZeros src k + 1)) := by
  induction k using skipZeros.induct (src := src) with
  | case1 k h ih =>
    have hk : src[k]? = some 0 := by
      cases hc : src[k]? with
      | none => simp [hc] at h
      | some c => simp [hc, lower_eq_zero] at h; simp [h]
    have hd : src.drop k = 0 :: src.drop (k + 1) := by
      have hlt : k < src.length := by
        rw [List.getElem?_eq_some_iff] at hk; exact hk.1
      rw [List.drop_eq_getElem_cons hlt]
      rw [List.getElem?_eq_some_iff] at hk
      rw [hk.2]
    rw [skipZeros, if_pos h, ← ih, hd]
    simp [items]
  | case2 k h =>
    rw [skipZeros, if_neg h]
    cases hc : src[k]? with
    | none =>
      have : src.length ≤ k := by simpa using hc
      simp [List.drop_eq_nil_of_le this, items]
    | some c =>
      have hne : c ≠ 0 := by
        intro h0; subst h0; simp [hc, lower_eq_zero] at h
      rw [List.getElem?_eq_some_iff] at hc
      obtain ⟨hlt, hc⟩ := hc
      rw [List.drop_eq_getElem_cons hlt, hc]
      simp [items, hne]

theorem skipZeros_idem (src : Bytes) (k : Nat) : skipZeros src (skipZeros src k) = skipZeros src k := by
  induction k using skipZeros.induct (src := src) with
  | case1 k h ih =>
    have e : skipZeros src k = skipZeros src (k + 1) := by rw [skipZeros, if_pos h]
    rw [e]; exact ih
  | case2 k h =>
    have e : skipZeros src k = k := by rw [skipZeros, if_neg h]
    rw [e, e]

theorem walks_nextNoZero : Walks (· != 0) Iter.nextNoZero := by
  constructor
  · intro it h
    simp only [Iter.rest] at h
    simp only [Iter.nextNoZero]
    generalize (if it.first = true then it.idx else it.idx + 1) = k at *
    rw [skipZeros_spec] at h
    cases hc : it.src[skipZeros it.src k]? with
    | none => simp
    | some c => simp [hc] at h
  · intro it i c tl h
    simp only [Iter.rest] at h
    simp only [Iter.nextNoZero, Iter.rest, Iter.subiter]
    generalize (if it.first = true then it.idx else it.idx + 1) = k at *
    rw [skipZeros_spec] at h
    cases hc : it.src[skipZeros it.src k]? with
    | none => simp [hc] at h
    | some d =>
      simp only [hc, List.cons.injEq, Prod.mk.injEq] at h
      obtain ⟨⟨h1, h2⟩, h3⟩ := h
      refine ⟨by simp [h2], h1, by simpa using h3, ?_⟩
      simp only [if_true]
      rw [skipZeros_spec, skipZeros_idem, hc]
      simp only [h2, h3]; rw [h1]

theorem drain_walks {keep next} (w : Walks keep next) : ∀ (fuel : Nat) (it : Iter),
    (it.rest keep).length < fuel → drain next fuel it = (it.rest keep).map Prod.snd := by
  intro fuel
  induction fuel with
  | zero => intro it h; omega
  | succ fuel ih =>
    intro it h
    cases hr : it.rest keep with
    | nil =>
      have := w.stop it hr
      simp only [drain]
      split
      · simp
      · rename_i c it' hn; simp [hn] at this
    | cons p tl =>
      obtain ⟨i, c⟩ := p
      obtain ⟨h1, h2, h3, h4⟩ := w.step it i c tl hr
      simp only [drain]
      split
      · rename_i hn; simp [hn] at h1
      · rename_i c' it' hn
        simp only [hn, Option.some.injEq] at h1 h3
        subst h1
        have hl : (it'.rest keep).length < fuel := by rw [h3]; simp [hr] at h; omega
        simp [ih it' hl, h3]

theorem lowerItems_eq (s : Bytes) : lowerItems s = s.map lower := by
  have hr : (Iter.new s).rest (fun _ => true) = items (fun _ => true) 0 s := by
    simp [Iter.rest, Iter.new]
  rw [lowerItems, drain_walks walks_next, hr, items_values]
  · congr 1; exact List.filter_eq_self.mpr (by simp)
  · rw [hr]; have := items_length (fun _ => true) s 0; omega

theorem lowerNoZeroItems_eq (s : Bytes) : lowerNoZeroItems s = (s.filter (· != 0)).map lower := by
  have hr : (Iter.new s).rest (· != 0) = items (· != 0) 0 s := by
    simp [Iter.rest, Iter.new]
  rw [lowerNoZeroItems, drain_walks walks_nextNoZero, hr, items_values]
  rw [hr]; have := items_length (· != 0) s 0; omega

theorem matchAt_walks {keep next} (w : Walks keep next) : ∀ (needle : Bytes) (e : Bool) (it : Iter),
    matchAt next needle e it =
      (if needle = [] then e else needle.isPrefixOf ((it.rest keep).map Prod.snd)) := by
  intro needle
  induction needle with
  | nil => intro e it; simp [matchAt]
  | cons c cs ih =>
    intro e it
    simp only [matchAt, if_neg (List.cons_ne_nil c cs)]
    cases hr : it.rest keep with
    | nil => simp [w.stop it hr]
    | cons p tl =>
      obtain ⟨i, d⟩ := p
      obtain ⟨h1, h2, h3, h4⟩ := w.step it i d tl hr
      rw [h1]
      by_cases hcd : c = d
      · subst hcd
        simp only [beq_self_eq_true, if_true, ih, List.map_cons, List.isPrefixOf, Bool.true_and]
        rw [h3]
        cases cs <;> simp
      · have : (c == d) = false := by simp [hcd]
        simp [List.isPrefixOf, this]

/-- First position from which the values start with `needle`. -/
def findItem (needle : Bytes) : List (Nat × UInt8) → Option Nat
  | [] => none
  | (i, c) :: tl =>
    if needle.isPrefixOf (c :: tl.map Prod.snd) then some i else findItem needle tl

theorem indexLoop_walks {keep next} (w : Walks keep next) (first : UInt8) (nd : Bytes) :
    ∀ (fuel : Nat) (it : Iter), (it.rest keep).length < fuel →
      indexLoop next first (first :: nd) fuel it = findItem (first :: nd) (it.rest keep) := by
  intro fuel
  induction fuel with
  | zero => intro it h; omega
  | succ fuel ih =>
    intro it h
    cases hr : it.rest keep with
    | nil =>
      have := w.stop it hr
      simp only [indexLoop, findItem]
      split
      · rfl
      · rename_i hn; simp [hn] at this
    | cons p tl =>
      obtain ⟨i, c⟩ := p
      obtain ⟨h1, h2, h3, h4⟩ := w.step it i c tl hr
      simp only [indexLoop, findItem]
      split
      · rename_i hn; simp [hn] at h1
      · rename_i c' it' hn
        simp only [hn, Option.some.injEq] at h1 h2 h3 h4
        subst h1
        have hl : (it'.rest keep).length < fuel := by rw [h3]; simp [hr] at h; omega
        rw [ih it' hl, h3, matchAt_walks w, h4, h2]
        by_cases hc : c' = first
        · subst hc; simp
        · have : (first == c') = false := by simp [Ne.symm hc]
          simp [hc, List.isPrefixOf, this]

theorem indexOf_walks {keep next} (w : Walks keep next) (src needle : Bytes) (hn : needle ≠ []) :
    indexOf next src needle = findItem needle (items keep 0 src) := by
  cases needle with
  | nil => exact absurd rfl hn
  | cons a nd =>
    have hr : (Iter.new src).rest keep = items keep 0 src := by simp [Iter.rest, Iter.new]
    rw [indexOf, indexLoop_walks w, hr]
    rw [hr]; have := items_length keep src 0; omega

/-- The offsets `i` at which the kept bytes of `s.drop i` start with `needle`. -/
theorem findItem_items (keep : UInt8 → Bool) (needle : Bytes) : ∀ (s : Bytes) (b : Nat),
    findItem needle (items keep b s) =
      (((List.range s.length).find? (fun i =>
        (s[i]?.any keep) && needle.isPrefixOf (((s.drop i).filter keep).map lower))).map (b + ·)) := by
  intro s
  induction s with
  | nil => intro b; simp [items, findItem]
  | cons c s ih =>
    intro b
    rw [List.length_cons, List.range_succ_eq_map, List.find?_cons]
    have hcomp : ((fun i => ((c :: s)[i]?.any keep) &&
        needle.isPrefixOf ((((c :: s).drop i).filter keep).map lower)) ∘ Nat.succ) =
        (fun i => (s[i]?.any keep) && needle.isPrefixOf (((s.drop i).filter keep).map lower)) := by
      funext i; simp
    by_cases hk : keep c
    · have hI : items keep b (c :: s) = (b, lower c) :: items keep (b + 1) s := by simp [items, hk]
      rw [hI, findItem, items_values]
      have hf : (((c :: s).drop 0).filter keep).map lower = lower c :: (s.filter keep).map lower := by
        simp [hk]
      rw [hf]
      simp only [List.getElem?_cons_zero, Option.any_some, hk, Bool.true_and]
      cases hp : needle.isPrefixOf (lower c :: (s.filter keep).map lower) with
      | true => simp
      | false =>
        simp only [Bool.false_eq_true, if_false]
        rw [ih, List.find?_map, hcomp, Option.map_map]
        congr 1; funext i; simp; omega
    · have hI : items keep b (c :: s) = items keep (b + 1) s := by simp [items, hk]
      rw [hI]
      simp only [List.getElem?_cons_zero, Option.any_some, hk, Bool.false_and]
      rw [ih, List.find?_map, hcomp, Option.map_map]
      congr 1; funext i; simp; omega

theorem eqNocase_map (s t : Bytes) : s.map lower = t.map lower ↔ EqNocase s t := by
  constructor
  · intro h
    have hl : s.length = t.length := by simpa using congrArg List.length h
    refine ⟨hl, fun i hs ht => ?_⟩
    rw [← lower_eq_iff]
    have := congrArg (fun l => l[i]?) h
    simpa [List.getElem?_eq_getElem hs, List.getElem?_eq_getElem ht] using this
  · rintro ⟨hl, h⟩
    apply List.ext_getElem (by simpa using hl)
    intro i h1 h2
    simp only [List.getElem_map]
    rw [lower_eq_iff]
    exact h i (by simpa using h1) (by simpa using h2)

theorem occursAt_iff (s t : Bytes) (i : Nat) (hi : i ≤ s.length) :
    OccursAt s t i ↔ (t.map lower).isPrefixOf ((s.drop i).map lower) = true := by
  rw [List.isPrefixOf_iff_prefix, List.prefix_iff_eq_take]
  rw [List.length_map, ← List.map_take, eqNocase_map]
  unfold OccursAt EqNocase
  have hlen : (List.take t.length (List.drop i s)).length = min t.length (s.length - i) := by
    rw [List.length_take, List.length_drop]
  constructor
  · rintro ⟨h1, h2⟩
    refine ⟨by omega, fun k hs ht => ?_⟩
    rw [← lower_eq_iff]
    have := (lower_eq_iff _ _).mpr (h2 k (by omega) hs)
    simp only [List.getElem_take, List.getElem_drop]
    exact this.symm
  · rintro ⟨h1, h2⟩
    refine ⟨by omega, fun k hs ht => ?_⟩
    rw [← lower_eq_iff]
    have := (lower_eq_iff _ _).mpr (h2 k ht (by omega))
    simp only [List.getElem_take, List.getElem_drop] at this
    exact this.symm

end Model

/-
Helper lemmas: the integer parser against the numeral specification.
-/
import Verif.Model.Parsers
import Verif.Spec.Numeral

namespace Model
open Spec

theorem digitVal_dec : ∀ c : UInt8, digitVal 10 c =
    if IsDecDigit c then some (digitValue c) else none := by decide +kernel

theorem digitVal_hex : ∀ c : UInt8, digitVal 16 c =
    if IsHexDigit c then some (digitValue c) else none := by decide +kernel

theorem isDigit_iff : ∀ c : UInt8, isDigit c = true ↔ IsDecDigit c := by decide +kernel
theorem isHexDigit_iff : ∀ c : UInt8, isHexDigit c = true ↔ IsHexDigit c := by decide +kernel

/-- Value continued from an accumulator. -/
def valueFrom (radix acc : Nat) (ds : Bytes) : Nat :=
  ds.foldl (fun n d => n * radix + digitValue d) acc

theorem valueFrom_ge (radix : Nat) (hr : 1 ≤ radix) : ∀ (ds : Bytes) (acc : Nat),
    acc ≤ valueFrom radix acc ds := by
  intro ds
  induction ds with
  | nil => intro acc; simp [valueFrom]
  | cons d ds ih =>
    intro acc
    have h1 := ih (acc * radix + digitValue d)
    have h2 : acc ≤ acc * radix := Nat.le_mul_of_pos_right _ hr
    simp only [valueFrom, List.foldl_cons] at h1 ⊢
    omega

theorem digitsLoop_spec (radix max : Nat) (D : UInt8 → Prop) [DecidablePred D] (hr : 1 ≤ radix)
    (hD : ∀ c, digitVal radix c = if D c then some (digitValue c) else none) :
    ∀ (ds : Bytes) (acc : Nat), acc ≤ max → digitsLoop radix max acc ds =
      if (∀ c ∈ ds, D c) ∧ valueFrom radix acc ds ≤ max then some (valueFrom radix acc ds) else none := by
  intro ds
  induction ds with
  | nil => intro acc h; simp [digitsLoop, valueFrom, h]
  | cons d ds ih =>
    intro acc hacc
    simp only [digitsLoop, hD d]
    by_cases hd : D d
    · simp only [hd, if_true]
      have hv : valueFrom radix acc (d :: ds) = valueFrom radix (acc * radix + digitValue d) ds := rfl
      split
      · rename_i hgt
        have := valueFrom_ge radix hr ds (acc * radix + digitValue d)
        rw [if_neg]
        rw [hv]; omega
      · rename_i hle
        rw [ih _ (by omega), hv]
        simp [hd]
    · simp [hd]

theorem value_eq (radix : Nat) (ds : Bytes) : value radix ds = valueFrom radix 0 ds := rfl

theorem not_plus_digit : ¬ IsDecDigit 43 ∧ ¬ IsHexDigit 43 := by decide

/-- `parse::<uN>` accepts exactly an optional plus sign followed by digits with a value in range. -/
theorem fromStrRadix_spec (radix max : Nat) (D : UInt8 → Prop) [DecidablePred D] (hr : 1 ≤ radix)
    (hD : ∀ c, digitVal radix c = if D c then some (digitValue c) else none) (h43 : ¬ D 43)
    (s : Bytes) (n : Nat) :
    fromStrRadix radix max s = some n ↔
      ∃ ds, (s = ds ∨ s = 43 :: ds) ∧ ds ≠ [] ∧ (∀ c ∈ ds, D c) ∧ value radix ds = n ∧ n ≤ max := by
  have key : ∀ ds : Bytes, ds ≠ [] → (digitsLoop radix max 0 ds = some n ↔
      (∀ c ∈ ds, D c) ∧ value radix ds = n ∧ n ≤ max) := by
    intro ds _
    rw [digitsLoop_spec radix max D hr hD ds 0 (by omega), value_eq]
    split
    · rename_i h; simp only [Option.some.injEq]; constructor
      · intro e; subst e; exact ⟨h.1, rfl, h.2⟩
      · exact fun h => h.2.1
    · rename_i h; simp only [reduceCtorEq, false_iff]; rintro ⟨h1, h2, h3⟩
      exact h ⟨h1, by omega⟩
  unfold fromStrRadix
  split
  · simp only [reduceCtorEq, false_iff]
    rintro ⟨ds, h | h, hne, _⟩
    · exact hne (by rw [← h])
    · simp at h
  · rename_i cs
    by_cases hcs : cs = []
    · subst hcs
      simp only [if_true, reduceCtorEq, false_iff]
      rintro ⟨ds, h | h, hne, hall, _⟩
      · subst h; exact h43 (hall 43 (by simp))
      · simp at h; exact hne h
    · rw [if_neg hcs, key cs hcs]
      constructor
      · intro h; exact ⟨cs, .inr rfl, hcs, h⟩
      · rintro ⟨ds, h | h, hne, hall, hr⟩
        · subst h; exact absurd (hall 43 (by simp)) h43
        · injection h with _ h; subst h; exact ⟨hall, hr⟩
  · rename_i h1 h2
    have hs : s ≠ [] := by simpa using h1
    rw [key s hs]
    constructor
    · intro h; exact ⟨s, .inl rfl, hs, h⟩
    · rintro ⟨ds, h | h, hne, hall, hr⟩
      · subst h; exact ⟨hall, hr⟩
      · exact absurd h (h2 ds)

/-- A digit string without sign. -/
theorem fromStrRadix_digits (radix max : Nat) (D : UInt8 → Prop) [DecidablePred D] (hr : 1 ≤ radix)
    (hD : ∀ c, digitVal radix c = if D c then some (digitValue c) else none) (h43 : ¬ D 43)
    (ds : Bytes) (hne : ds ≠ []) (hds : ∀ c ∈ ds, D c) :
    fromStrRadix radix max ds = if value radix ds ≤ max then some (value radix ds) else none := by
  cases h : fromStrRadix radix max ds with
  | none =>
    split
    · rename_i hle
      have := (fromStrRadix_spec radix max D hr hD h43 ds (value radix ds)).mpr
        ⟨ds, .inl rfl, hne, hds, rfl, hle⟩
      rw [h] at this; exact this
    · rfl
  | some n =>
    obtain ⟨ds', h1, _, h3, h4, h5⟩ := (fromStrRadix_spec radix max D hr hD h43 ds n).mp h
    rcases h1 with h1 | h1
    · subst h1; rw [h4, if_pos h5]
    · subst h1; exact absurd (hds 43 (by simp)) h43

theorem value_append (radix : Nat) (a b : Bytes) :
    value radix (a ++ b) = valueFrom radix (value radix a) b := by
  simp [value, valueFrom, List.foldl_append]

theorem digitValue_digitChar : ∀ d : Nat, d < 16 → digitValue (digitChar d) = d := by decide
theorem isDec_digitChar : ∀ d : Nat, d < 10 → IsDecDigit (digitChar d) := by decide
theorem isHex_digitChar : ∀ d : Nat, d < 16 → IsHexDigit (digitChar d) := by decide

theorem render_props (radix : Nat) (h2 : 2 ≤ radix) (h16 : radix ≤ 16) (n : Nat) :
    render radix n ≠ [] ∧ value radix (render radix n) = n ∧
      ∀ c ∈ render radix n, ∃ d, d < radix ∧ c = digitChar d := by
  induction n using Nat.strongRecOn with
  | ind n ih =>
    rw [render]
    split
    · rename_i h
      have hn : n < radix := by omega
      refine ⟨by simp, ?_, ?_⟩
      · simp [value, digitValue_digitChar n (by omega)]
      · intro c hc; simp at hc; exact ⟨n, hn, hc⟩
    · rename_i h
      have hlt : n / radix < n := Nat.div_lt_self (by omega) (by omega)
      obtain ⟨h1, h3, h4⟩ := ih _ hlt
      have hm : n % radix < radix := Nat.mod_lt _ (by omega)
      refine ⟨by simp, ?_, ?_⟩
      · rw [value_append, h3]
        simp only [valueFrom, List.foldl_cons, List.foldl_nil]
        rw [digitValue_digitChar _ (by omega)]
        have := Nat.div_add_mod n radix
        rw [Nat.mul_comm] at this; omega
      · intro c hc
        rw [List.mem_append] at hc
        rcases hc with hc | hc
        · exact h4 c hc
        · simp at hc; exact ⟨n % radix, hm, hc⟩

theorem render_dec_digits (n : Nat) : ∀ c ∈ render 10 n, IsDecDigit c := by
  intro c hc
  obtain ⟨d, hd, rfl⟩ := (render_props 10 (by omega) (by omega) n).2.2 c hc
  exact isDec_digitChar d hd

theorem render_hex_digits (n : Nat) : ∀ c ∈ render 16 n, IsHexDigit c := by
  intro c hc
  obtain ⟨d, hd, rfl⟩ := (render_props 16 (by omega) (by omega) n).2.2 c hc
  exact isHex_digitChar d hd

end Model

/-
C01 – C03: case-insensitive comparison and search.
-/
import Verif.Lemmas.Bstr

namespace Props
open Model Spec

/-! ### C01 comparison -/

/-- C01: `cmp_nocase` says Equal exactly for strings that agree up to ASCII case. -/
theorem C01_cmp_nocase_eq_iff (s t : Bytes) : cmpNocase s t = .eq ↔ EqNocase s t := by
  rw [cmpNocase, iterCmp_eq, lowerItems_eq, lowerItems_eq, eqNocase_map]

/-- C01: `eq_nocase` agrees with the specification. -/
theorem C01_eq_nocase_iff (s t : Bytes) : eqNocase s t = true ↔ EqNocase s t := by
  rw [eqNocase, beq_iff_eq, C01_cmp_nocase_eq_iff]

/-- C01: swapping the arguments reverses the ordering. -/
theorem C01_cmp_nocase_swap (s t : Bytes) : cmpNocase t s = (cmpNocase s t).swap :=
  iterCmp_swap _ _

/-- C01: the ordering is transitive (also through Equal, see `C01_cmp_nocase_congr`). -/
theorem C01_cmp_nocase_lt_trans (s t u : Bytes) (h1 : cmpNocase s t = .lt)
    (h2 : cmpNocase t u = .lt) : cmpNocase s u = .lt :=
  iterCmp_lt_trans _ _ _ h1 h2

/-- C01: equal strings (up to case) compare alike to anything. -/
theorem C01_cmp_nocase_congr (s t u : Bytes) (h : EqNocase s t) : cmpNocase s u = cmpNocase t u := by
  rw [← eqNocase_map] at h
  simp only [cmpNocase, lowerItems_eq, h]

/-- C01: the ordering is decided at the first position where the strings differ up to case: `s` is
less than `t` exactly when, after a common part that agrees up to case, `s` ends or has the smaller
lower-cased byte. -/
theorem C01_cmp_nocase_lt_iff (s t : Bytes) : cmpNocase s t = .lt ↔
    ∃ p q r, p ++ q = s ∧ ∃ p', p' ++ r = t ∧ EqNocase p p' ∧
      ((q = [] ∧ r ≠ []) ∨ ∃ a q' b r', q = a :: q' ∧ r = b :: r' ∧ lower a < lower b) := by
  rw [cmpNocase, lowerItems_eq, lowerItems_eq]
  constructor
  · intro h
    induction s generalizing t with
    | nil =>
      cases t with
      | nil => simp [iterCmp] at h
      | cons b t => exact ⟨[], [], b :: t, rfl, [], rfl, ⟨rfl, by simp⟩, .inl ⟨rfl, by simp⟩⟩
    | cons a s ih =>
      cases t with
      | nil => simp [iterCmp] at h
      | cons b t =>
        simp only [List.map_cons, iterCmp] at h
        split at h
        · rename_i hlt
          exact ⟨[], a :: s, b :: t, rfl, [], rfl, ⟨rfl, by simp⟩, .inr ⟨a, s, b, t, rfl, rfl, hlt⟩⟩
        · split at h
          · rename_i heq
            obtain ⟨p, q, r, h1, p', h2, h3, h4⟩ := ih t h
            refine ⟨a :: p, q, r, by simp [h1], b :: p', by simp [h2], ?_, h4⟩
            rw [← eqNocase_map] at h3 ⊢
            simp [heq, h3]
          · simp at h
  · rintro ⟨p, q, r, h1, p', h2, h3, h4⟩
    subst h1; subst h2
    rw [← eqNocase_map] at h3
    rw [List.map_append, List.map_append, h3]
    generalize List.map lower p' = c
    induction c with
    | nil =>
      rcases h4 with ⟨hq, hr⟩ | ⟨a, q', b, r', hq, hr, hlt⟩
      · subst hq
        cases r with
        | nil => exact absurd rfl hr
        | cons b r => simp [iterCmp]
      · subst hq; subst hr; simp [iterCmp, hlt]
    | cons c cs ih => simp [iterCmp, ih]

/-- C01: the zero-skipping comparison compares `s` with its NUL bytes deleted. -/
theorem C01_cmp_nocase_nozero (s t : Bytes) :
    cmpNocaseNozero s t = cmpNocase (withoutNul s) t := by
  rw [cmpNocaseNozero, cmpNocase, lowerNoZeroItems_eq, lowerItems_eq, lowerItems_eq, withoutNul]
  congr 3
  funext x; by_cases hx : x = 0 <;> simp [hx]

/-- C01: `eq_nocase_nozero` against the specification. -/
theorem C01_eq_nocase_nozero_iff (s t : Bytes) :
    eqNocaseNozero s t = true ↔ EqNocase (withoutNul s) t := by
  rw [eqNocaseNozero, beq_iff_eq, C01_cmp_nocase_nozero, C01_cmp_nocase_eq_iff]

/-- C01: the trimmed comparison compares the middle part of `s` that remains once the maximal
whitespace at both ends is removed. -/
theorem C01_cmp_nocase_trimmed (s t : Bytes) :
    ∃ pre mid post, s = pre ++ mid ++ post ∧
      (∀ c ∈ pre, c ∈ asciiWhitespace) ∧ (∀ c ∈ post, c ∈ asciiWhitespace) ∧
      (∀ c ∈ mid.head?, c ∉ asciiWhitespace) ∧ (∀ c ∈ mid.getLast?, c ∉ asciiWhitespace) ∧
      cmpNocaseTrimmed s t = cmpNocase mid t := by
  have ws : ∀ c : UInt8, c ∈ asciiWhitespace ↔ isAsciiWhitespace c = true := by decide +kernel
  simp only [ws]
  refine ⟨s.takeWhile isAsciiWhitespace, trimAscii s,
    ((s.dropWhile isAsciiWhitespace).reverse.takeWhile isAsciiWhitespace).reverse, ?_, ?_, ?_, ?_, ?_, rfl⟩
  · rw [trimAscii, List.append_assoc, ← List.reverse_append, List.takeWhile_append_dropWhile,
      List.reverse_reverse, List.takeWhile_append_dropWhile]
  · intro c hc
    have := List.all_takeWhile (l := s) (p := isAsciiWhitespace)
    exact List.all_eq_true.mp this c hc
  · intro c hc
    have := List.all_takeWhile (l := (s.dropWhile isAsciiWhitespace).reverse) (p := isAsciiWhitespace)
    exact List.all_eq_true.mp this c (by simpa using hc)
  · intro c hc hw
    rw [trimAscii, List.head?_reverse] at hc
    generalize hd : s.dropWhile isAsciiWhitespace = d at hc
    have hh : ∀ x ∈ d.head?, ¬ isAsciiWhitespace x := by
      intro x hx; rw [← hd] at hx
      have := List.head?_dropWhile_not isAsciiWhitespace s
      rw [Option.mem_def.mp hx] at this
      simpa using this
    have hsuf : (d.reverse.dropWhile isAsciiWhitespace) <:+ d.reverse := List.dropWhile_suffix _
    obtain ⟨pre, hpre⟩ := hsuf
    have hl : d.reverse.getLast? = some c := by
      rw [← hpre, List.getLast?_append]; simp [Option.mem_def.mp hc]
    rw [List.getLast?_reverse] at hl
    exact hh c (by simp [hl]) hw
  · intro c hc hw
    rw [trimAscii, List.getLast?_reverse] at hc
    have := List.head?_dropWhile_not isAsciiWhitespace ((s.dropWhile isAsciiWhitespace).reverse)
    rw [Option.mem_def.mp hc] at this
    simp [hw] at this

example : eqNocase (b! "Content-LENGTH") (b! "content-length") = true := by decide +kernel
example : eqNocase (b! "content[length") (b! "content{length") = false := by decide +kernel
example : cmpNocase (b! "abc") (b! "ABD") = .lt ∧ cmpNocase (b! "ABD") (b! "abda") = .lt := by
  decide +kernel
example : eqNocaseNozero [0, 65, 0, 0, 98, 0] (b! "aB") = true := by decide +kernel
example : cmpNocaseTrimmed (b! " \tClose \r\n") (b! "close") = .eq := by decide +kernel

/-! ### C02 search -/

theorem filter_all (s : Bytes) : s.filter (fun _ => true) = s := List.filter_eq_self.mpr (by simp)

/-- C02: `index_of_nocase` returns `i` exactly when the needle is non-empty, occurs at `i`, and does
not occur at any smaller offset. -/
theorem C02_index_of_nocase_some (s t : Bytes) (i : Nat) :
    indexOfNocase s t = some i ↔
      t ≠ [] ∧ OccursAt s t i ∧ ∀ j, j < i → ¬ OccursAt s t j := by
  by_cases ht : t = []
  · subst ht; simp [indexOfNocase, indexOf, lowerAll]
  · have ht' : lowerAll t ≠ [] := by simpa [lowerAll] using ht
    rw [indexOfNocase, indexOf_walks walks_next _ _ ht', findItem_items]
    have hlen : 0 < t.length := List.length_pos_iff.mpr ht
    have hocc : ∀ j, OccursAt s t j ↔ j < s.length ∧
        ((s[j]?.any (fun _ => true)) &&
          (lowerAll t).isPrefixOf (((s.drop j).filter (fun _ => true)).map lower)) = true := by
      intro j
      rw [filter_all]
      constructor
      · intro h
        have hj : j < s.length := by have := h.1; omega
        refine ⟨hj, ?_⟩
        rw [occursAt_iff s t j (by omega)] at h
        simpa [hj, lowerAll] using h
      · rintro ⟨hj, h⟩
        rw [occursAt_iff s t j (by omega)]
        simp only [Bool.and_eq_true] at h
        exact h.2
    simp only [Nat.zero_add, Option.map_id', ne_eq, ht, not_false_eq_true, true_and]
    rw [List.find?_range_eq_some]
    constructor
    · rintro ⟨h1, h2, h3⟩
      rw [List.mem_range] at h2
      refine ⟨(hocc i).mpr ⟨h2, h1⟩, fun j hj h => ?_⟩
      have := h3 j hj
      rw [((hocc j).mp h).2] at this
      simp at this
    · rintro ⟨h1, h2⟩
      have h1' := (hocc i).mp h1
      refine ⟨h1'.2, List.mem_range.mpr h1'.1, fun j hj => ?_⟩
      have := h2 j hj
      rw [hocc] at this
      have hj' : j < s.length := by omega
      simp only [hj', true_and] at this
      simpa only [Bool.not_eq_eq_eq_not, Bool.not_true, Bool.not_eq_true] using this

/-- C02: it returns nothing exactly when the needle is empty or does not occur. -/
theorem C02_index_of_nocase_none (s t : Bytes) :
    indexOfNocase s t = none ↔ t = [] ∨ ∀ i, ¬ OccursAt s t i := by
  by_cases ht : t = []
  · subst ht; simp [indexOfNocase, indexOf, lowerAll]
  · simp only [ht, false_or]
    constructor
    · intro h i
      induction i using Nat.strongRecOn with
      | ind i ih =>
        intro hi
        have := (C02_index_of_nocase_some s t i).mpr ⟨ht, hi, ih⟩
        rw [h] at this; simp at this
    · intro h
      cases hr : indexOfNocase s t with
      | none => rfl
      | some i => exact absurd ((C02_index_of_nocase_some s t i).mp hr).2.1 (h i)

example : indexOfNocase (b! "gzip, Chunked, CHUNKED") (b! "chunked") = some 6 := by decide +kernel
example : indexOfNocase (b! "gzip, chunke") (b! "chunked") = none := by decide +kernel

/-! ### C03 zero-skipping search -/

/-- C03: `index_of_nocase_nozero` returns the smallest offset carrying a non-NUL byte from which the
needle can be read when NUL bytes are skipped. -/
theorem C03_index_of_nocase_nozero_some (s t : Bytes) (i : Nat) :
    indexOfNocaseNozero s t = some i ↔
      t ≠ [] ∧ OccursAtSkippingNul s t i ∧ ∀ j, j < i → ¬ OccursAtSkippingNul s t j := by
  by_cases ht : t = []
  · subst ht; simp [indexOfNocaseNozero, indexOf, lowerAll]
  · have ht' : lowerAll t ≠ [] := by simpa [lowerAll] using ht
    rw [indexOfNocaseNozero, indexOf_walks walks_nextNoZero _ _ ht', findItem_items]
    have hocc : ∀ j, OccursAtSkippingNul s t j ↔ j < s.length ∧
        ((s[j]?.any (· != 0)) &&
          (lowerAll t).isPrefixOf (((s.drop j).filter (· != 0)).map lower)) = true := by
      intro j
      have hf : withoutNul (s.drop j) = (s.drop j).filter (· != 0) := by
        unfold withoutNul; congr 1; funext x; by_cases hx : x = 0 <;> simp [hx]
      unfold OccursAtSkippingNul
      rw [occursAt_iff _ t 0 (by omega), hf, List.drop_zero]
      constructor
      · rintro ⟨⟨c, hc, hc0⟩, h⟩
        have hj : j < s.length := by
          rw [List.getElem?_eq_some_iff] at hc; exact hc.1
        refine ⟨hj, ?_⟩
        rw [hc]; simp only [Option.any_some, Bool.and_eq_true]
        exact ⟨by simpa using hc0, h⟩
      · rintro ⟨hj, h⟩
        simp only [Bool.and_eq_true] at h
        refine ⟨⟨s[j], by simp [hj], ?_⟩, h.2⟩
        have := h.1
        rw [List.getElem?_eq_getElem hj] at this
        simpa using this
    simp only [Nat.zero_add, Option.map_id', ne_eq, ht, not_false_eq_true, true_and]
    rw [List.find?_range_eq_some]
    constructor
    · rintro ⟨h1, h2, h3⟩
      rw [List.mem_range] at h2
      refine ⟨(hocc i).mpr ⟨h2, h1⟩, fun j hj h => ?_⟩
      have := h3 j hj
      rw [((hocc j).mp h).2] at this
      simp at this
    · rintro ⟨h1, h2⟩
      have h1' := (hocc i).mp h1
      refine ⟨h1'.2, List.mem_range.mpr h1'.1, fun j hj => ?_⟩
      have := h2 j hj
      rw [hocc] at this
      have hj' : j < s.length := by omega
      simp only [hj', true_and] at this
      simpa only [Bool.not_eq_eq_eq_not, Bool.not_true, Bool.not_eq_true] using this

/-- C03: some offset is returned exactly when the non-empty needle occurs in the string with its NUL
bytes deleted. -/
theorem C03_index_of_nocase_nozero_isSome (s t : Bytes) :
    (indexOfNocaseNozero s t).isSome ↔ t ≠ [] ∧ ∃ i, OccursAt (withoutNul s) t i := by
  by_cases ht : t = []
  · subst ht; simp [indexOfNocaseNozero, indexOf, lowerAll]
  simp only [ne_eq, ht, not_false_eq_true, true_and]
  have key : (∃ i, OccursAtSkippingNul s t i) ↔ ∃ i, OccursAt (withoutNul s) t i := by
    have hpos : 0 < t.length := List.length_pos_iff.mpr ht
    constructor
    · rintro ⟨i, _, h⟩
      refine ⟨(withoutNul (s.take i)).length, ?_⟩
      have hs : withoutNul s = withoutNul (s.take i) ++ withoutNul (s.drop i) := by
        unfold withoutNul; rw [← List.filter_append, List.take_append_drop]
      rw [occursAt_iff _ _ _ (by rw [hs]; simp)]
      rw [occursAt_iff _ _ _ (by omega)] at h
      rw [hs, List.drop_left]
      simpa using h
    · rintro ⟨i, h⟩
      -- the i-th kept byte sits at some offset of `s`
      have hi : i < (withoutNul s).length := by have := h.1; omega
      rw [occursAt_iff _ _ _ (by omega)] at h
      have : ∀ (s : Bytes) (i : Nat), i < (withoutNul s).length →
          ∃ j c, s[j]? = some c ∧ c ≠ 0 ∧ withoutNul (s.drop j) = (withoutNul s).drop i := by
        intro s
        induction s with
        | nil => intro i hi; simp [withoutNul] at hi
        | cons c s ih =>
          intro i hi
          by_cases hc : c = 0
          · have e : withoutNul (c :: s) = withoutNul s := by simp [withoutNul, hc]
            rw [e] at hi ⊢
            obtain ⟨j, d, h1, h2, h3⟩ := ih i hi
            exact ⟨j + 1, d, by simpa using h1, h2, by simpa using h3⟩
          · have e : withoutNul (c :: s) = c :: withoutNul s := by simp [withoutNul, hc]
            rw [e] at hi ⊢
            cases i with
            | zero => exact ⟨0, c, by simp, hc, by simp [e]⟩
            | succ i =>
              obtain ⟨j, d, h1, h2, h3⟩ := ih i (by simpa using hi)
              exact ⟨j + 1, d, by simpa using h1, h2, by simpa using h3⟩
      obtain ⟨j, c, h1, h2, h3⟩ := this s i hi
      refine ⟨j, ⟨c, h1, h2⟩, ?_⟩
      rw [occursAt_iff _ _ _ (by omega), List.drop_zero, h3]
      exact h
  rw [← key]
  constructor
  · intro h
    obtain ⟨i, hi⟩ := Option.isSome_iff_exists.mp h
    exact ⟨i, ((C03_index_of_nocase_nozero_some s t i).mp hi).2.1⟩
  · rintro ⟨i, hi⟩
    cases hr : indexOfNocaseNozero s t with
    | some j => rfl
    | none =>
      exfalso
      induction i using Nat.strongRecOn with
      | ind i ih =>
        have := (C03_index_of_nocase_nozero_some s t i).mpr ⟨ht, hi, fun j hj h => ih j hj h⟩
        rw [hr] at this; simp at this

example : indexOfNocaseNozero (b! "x, c\x00hU\x00nked") (b! "chunked") = some 3 := by decide +kernel
example : indexOfNocaseNozero [0, 0] (b! "a") = none := by decide +kernel

end Props

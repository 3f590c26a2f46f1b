/-
C05 – C07: trimming, ports, hostnames.
-/
import Verif.Lemmas.Span
import Verif.Lemmas.Numeral

namespace Props
open Model Spec

/-! ### C05 chomp and trim -/

/-- C05: `chomp` removes exactly the maximal suffix of CR and LF bytes. -/
theorem C05_chomp (s : Bytes) :
    ∃ post, s = chomp s ++ post ∧ (∀ c ∈ post, c = 10 ∨ c = 13) ∧
      (∀ c ∈ (chomp s).getLast?, c ≠ 10 ∧ c ≠ 13) := by
  obtain ⟨post, h1, h2, h3⟩ := dropLastWhile_split (fun c => c == 10 || c == 13) s
  refine ⟨post, h1, ?_, ?_⟩
  · intro c hc; simpa using h2 c hc
  · intro c hc; simpa using h3 c hc

/-- C05: `chomp` is idempotent. -/
theorem C05_chomp_idempotent (s : Bytes) : chomp (chomp s) = chomp s := by
  obtain ⟨_, _, _, h⟩ := dropLastWhile_split (fun c => c == 10 || c == 13) s
  exact dropLastWhile_of_last h

/-- C05: `trimmed` removes exactly the maximal whitespace prefix and suffix. -/
theorem C05_trimmed (s : Bytes) :
    ∃ pre post, s = pre ++ trimmed s ++ post ∧
      (∀ c ∈ pre, c ∈ [32, 9, 13, 10, 11, 12]) ∧ (∀ c ∈ post, c ∈ [32, 9, 13, 10, 11, 12]) ∧
      (∀ c ∈ (trimmed s).head?, c ∉ [32, 9, 13, 10, 11, 12]) ∧
      (∀ c ∈ (trimmed s).getLast?, c ∉ [32, 9, 13, 10, 11, 12]) := by
  have ws : ∀ c : UInt8, c ∈ [32, 9, 13, 10, 11, 12] ↔ isSpace c = true := by decide +kernel
  simp only [ws]
  obtain ⟨post, h1, h2, h3⟩ := dropLastWhile_split isSpace (trimStart s)
  have hsplit : s = s.takeWhile isSpace ++ trimStart s := by
    rw [trimStart_eq, List.takeWhile_append_dropWhile]
  refine ⟨s.takeWhile isSpace, post, ?_, takeWhile_all _ _, h2, ?_, ?_⟩
  · rw [List.append_assoc]
    show s = s.takeWhile isSpace ++ (dropLastWhile isSpace (trimStart s) ++ post)
    rw [← h1, ← hsplit]
  · intro c hc
    have hc' : c ∈ (trimStart s).head? := by
      rw [h1]
      have hc : c ∈ (dropLastWhile isSpace (trimStart s)).head? := hc
      cases hd : dropLastWhile isSpace (trimStart s) with
      | nil => rw [hd] at hc; simp at hc
      | cons a l => rw [hd] at hc; simpa using hc
    rw [trimStart_eq] at hc'
    simp [dropWhile_head isSpace s c hc']
  · intro c hc
    simp [h3 c hc]

/-- C05: `trimmed` is idempotent. -/
theorem C05_trimmed_idempotent (s : Bytes) : trimmed (trimmed s) = trimmed s := by
  obtain ⟨_, _, _, _, _, h4, h5⟩ := C05_trimmed s
  have ws : ∀ c : UInt8, c ∉ [32, 9, 13, 10, 11, 12] → isSpace c = false := by decide +kernel
  have e : trimStart (trimmed s) = trimmed s := by
    rw [trimStart_eq]; exact (takeWhile_eq_nil_of_head (fun c hc => ws c (h4 c hc))).2
  conv => lhs; rw [trimmed, e, trimEnd]
  exact dropLastWhile_of_last (fun c hc => ws c (h5 c hc))

example : chomp (b! "GET\r / \r\n\n") = b! "GET\r / " := by decide +kernel
example : trimmed (b! "\t a b \x0b") = b! "a b" := by decide +kernel

/-! ### C06 ports -/

/-- C06: a port converts exactly when it is a decimal numeral (optionally signed '+') whose value is in
1..=65535. -/
theorem C06_convert_port (p : Bytes) (n : Nat) :
    convertPort p = some n ↔
      (∃ ds, (p = ds ∨ p = 43 :: ds) ∧ ds ≠ [] ∧ (∀ c ∈ ds, IsDecDigit c) ∧ value 10 ds = n) ∧
        1 ≤ n ∧ n ≤ 65535 := by
  have hs := fromStrRadix_spec 10 65535 IsDecDigit (by omega) digitVal_dec not_plus_digit.1 p
  unfold convertPort
  by_cases hp : p = []
  · subst hp
    simp only [if_true, reduceCtorEq, false_iff]
    rintro ⟨⟨ds, h | h, hne, _⟩, _⟩
    · exact hne h.symm
    · simp at h
  · rw [if_neg hp]
    cases h : fromStrRadix 10 65535 p with
    | none =>
      simp only [reduceCtorEq, false_iff]
      rintro ⟨⟨ds, h1, h2, h3, h4⟩, h5, h6⟩
      have := (hs n).mpr ⟨ds, h1, h2, h3, h4, h6⟩
      rw [h] at this; simp at this
    | some m =>
      obtain ⟨ds, h1, h2, h3, h4, h5⟩ := (hs m).mp h
      constructor
      · intro he
        by_cases hm : m = 0
        · simp [hm] at he
        · simp only [hm, if_false, Option.some.injEq] at he
          subst he
          exact ⟨⟨ds, h1, h2, h3, h4⟩, by omega, h5⟩
      · rintro ⟨⟨ds', g1, g2, g3, g4⟩, g5, g6⟩
        have := (hs n).mpr ⟨ds', g1, g2, g3, g4, g6⟩
        rw [h] at this
        injection this with e; subst e
        simp; omega

/-- C06: the port of a rendered number is that number when it is in range, and none otherwise. -/
theorem C06_convert_port_render (n : Nat) :
    convertPort (render 10 n) = if 1 ≤ n ∧ n ≤ 65535 then some n else none := by
  obtain ⟨h1, h2, _⟩ := render_props 10 (by omega) (by omega) n
  split
  · rename_i h
    rw [C06_convert_port]
    exact ⟨⟨_, .inl rfl, h1, render_dec_digits n, h2⟩, h⟩
  · rename_i h
    cases hc : convertPort (render 10 n) with
    | none => rfl
    | some m =>
      rw [C06_convert_port] at hc
      obtain ⟨⟨ds, g1 | g1, g2, g3, g4⟩, g5⟩ := hc
      · subst g1; omega
      · have := render_dec_digits n 43 (by rw [g1]; simp)
        exact absurd this not_plus_digit.1

example : convertPort (b! "00080") = some 80 ∧ convertPort (b! "65536") = none ∧
    convertPort (b! "0") = none ∧ convertPort (b! "+7") = some 7 ∧ convertPort (b! "8 0") = none := by
  decide +kernel

end Props

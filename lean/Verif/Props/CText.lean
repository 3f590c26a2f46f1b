/-
C69: byte strings as C strings.
-/
import Verif.Props.Bstr
import Verif.Spec.CApi

namespace Props

open Model Spec

theorem nullCount_eq (src : Bytes) : nullCount src = src.count 0 + 1 := by
  have key : ∀ (src : Bytes) (n : Nat), src.foldl (fun n c => if c = 0 then n + 1 else n) n = src.count 0 + n := by
    intro src
    induction src with
    | nil => simp
    | cons c src ih =>
      intro n
      rw [List.foldl_cons, ih]
      by_cases hc : c = 0
      · rw [if_pos hc, hc, List.count_cons_self]; omega
      · rw [if_neg hc, List.count_cons_of_ne hc]
  exact key src 1

theorem cText_length (s : Bytes) : (cText s).length = s.length + s.count 0 := by
  induction s with
  | nil => rfl
  | cons c s ih =>
    unfold cText at ih ⊢
    rw [List.flatMap_cons, List.length_append, ih, List.length_cons]
    by_cases hc : c = 0
    · rw [if_pos hc, hc, List.count_cons_self]; simp; omega
    · rw [if_neg hc, List.count_cons_of_ne hc]; simp; omega

theorem cText_no_nul (s : Bytes) : 0 ∉ cText s := by
  unfold cText
  intro h
  obtain ⟨c, _, hc⟩ := List.mem_flatMap.1 h
  by_cases h0 : c = 0
  · rw [if_pos h0] at hc; simp at hc
  · rw [if_neg h0] at hc
    have : (0 : UInt8) = c := by simpa using hc
    exact h0 this.symm

/-- Writing after what has been written. -/
theorem storeByte_after (done : List UInt8) (rest : List (Option UInt8)) (r : Option UInt8) (b : UInt8) :
    storeByte (done.map some ++ r :: rest) done.length b = .ok ((done ++ [b]).map some ++ rest) := by
  unfold storeByte
  rw [if_pos (by simp)]
  congr 1
  rw [List.set_append_right _ _ (by simp)]
  simp

theorem strdupLoop_eq : ∀ (src done : Bytes) (k : Nat),
    strdupLoop src (done.map some ++ List.replicate ((cText src).length + k) none) done.length =
      .ok ((done ++ cText src).map some ++ List.replicate k none, (done ++ cText src).length) := by
  intro src
  induction src with
  | nil => intro done k; simp [strdupLoop, cText]
  | cons c src ih =>
    intro done k
    unfold strdupLoop
    by_cases hc : c = 0
    · rw [if_pos hc]
      have e : cText (c :: src) = [92, 48] ++ cText src := by unfold cText; rw [List.flatMap_cons, if_pos hc]
      have el : (cText (c :: src)).length + k = ((cText src).length + k) + 1 + 1 := by rw [e]; simp; omega
      rw [el, List.replicate_succ, storeByte_after]
      dsimp only
      rw [List.replicate_succ]
      have h2 := storeByte_after (done ++ [92]) (List.replicate ((cText src).length + k) none) none 48
      have hl : (done ++ [92]).length = done.length + 1 := by simp
      rw [hl] at h2
      rw [h2]
      dsimp only
      have h3 := ih (done ++ [92] ++ [48]) k
      have hl : (done ++ [92] ++ [48]).length = done.length + 2 := by simp
      rw [hl] at h3
      rw [h3, e]
      simp
    · rw [if_neg hc]
      have e : cText (c :: src) = [c] ++ cText src := by unfold cText; rw [List.flatMap_cons, if_neg hc]
      have el : (cText (c :: src)).length + k = ((cText src).length + k) + 1 := by rw [e]; simp; omega
      rw [el, List.replicate_succ, storeByte_after]
      dsimp only
      have h3 := ih (done ++ [c]) k
      have hl : (done ++ [c]).length = done.length + 1 := by simp
      rw [hl] at h3
      rw [h3, e]
      simp

/-- C69. The C string made of a byte string, whatever the bytes: no byte is written outside of the memory
allocated, all of it is written, it ends with the first NUL in it, and its text is the byte string with
each NUL written as `\0`. -/
theorem C69_strdup (enough : Nat → Bool) (b : Bytes) (h : enough (b.length + b.count 0 + 1) = true) :
    ∃ mem, bstrUtilStrdupToC enough (some b) = .ok (some mem) ∧ CString mem (cText b) := by
  refine ⟨(cText b ++ [0]).map some, ?_, cText_no_nul b, rfl⟩
  unfold bstrUtilStrdupToC
  dsimp only
  have hn : b.length + nullCount b = (cText b).length + 1 := by rw [nullCount_eq, cText_length]; omega
  rw [hn]
  have hm : (cText b).length + 1 = b.length + b.count 0 + 1 := by rw [cText_length]
  rw [hm, h, ← hm, if_pos rfl]
  have h1 := strdupLoop_eq b [] 1
  simp only [List.map_nil, List.nil_append, List.length_nil] at h1
  rw [h1]
  dsimp only
  have h2 := storeByte_after (cText b) [] none 0
  rw [show List.replicate 1 (none : Option UInt8) = [none] from rfl, h2]
  simp

/-- C69. Without memory, or for NULL, the answer is NULL. -/
theorem C69_strdup_null (enough : Nat → Bool) : bstrUtilStrdupToC enough none = .ok none ∧
    ∀ b : Bytes, enough (b.length + b.count 0 + 1) = false → bstrUtilStrdupToC enough (some b) = .ok none := by
  refine ⟨rfl, fun b h => ?_⟩
  unfold bstrUtilStrdupToC
  dsimp only
  rw [nullCount_eq, ← Nat.add_assoc, h]
  rfl

theorem cText_of_no_nul (b : Bytes) (h : 0 ∉ b) : cText b = b := by
  induction b with
  | nil => rfl
  | cons c b ih =>
    have hc : c ≠ 0 := fun h0 => h (by simp [h0])
    have := ih fun h0 => h (by simp [h0])
    unfold cText at this ⊢
    rw [List.flatMap_cons, this, if_neg hc]
    rfl

/-- Reading a C string. -/
theorem cStr_of_CString {mem : Bytes} {text : Bytes} (h : CString (mem.map some) text) :
    cStr (some mem) = .ok text := by
  obtain ⟨h0, hm⟩ := h
  have hm : mem = text ++ [0] := by
    have := congrArg (List.map fun o : Option UInt8 => o.getD 0) hm
    simpa [Function.comp_def] using this
  unfold cStr
  dsimp only
  rw [if_pos (by rw [hm]; simp), hm]
  congr 1
  rw [List.takeWhile_append_of_pos (fun x hx => by
    have : x ≠ 0 := fun h => h0 (h ▸ hx)
    simpa using this)]
  simp

/-- C69. A byte string without NULs survives the way to C and back (`bstr_util_strdup_to_c`, then
`bstr_dup_c`); one with a NUL comes back as its text. -/
theorem C69_round_trip (b : Bytes) (mem : Bytes) (enough : Nat → Bool)
    (h : bstrUtilStrdupToC enough (some b) = .ok (some (mem.map some))) :
    bstrDupC (some mem) = .ok (cText b) ∧ (bstrDupC (some mem) = .ok b ↔ 0 ∉ b) := by
  have he : enough (b.length + b.count 0 + 1) = true := by
    cases hc : enough (b.length + b.count 0 + 1) with
    | true => rfl
    | false => rw [(C69_strdup_null enough).2 b hc] at h; cases h
  obtain ⟨mem', hm, hcs⟩ := C69_strdup enough b he
  rw [h] at hm
  cases hm
  have hd : bstrDupC (some mem) = .ok (cText b) := cStr_of_CString hcs
  refine ⟨hd, ?_⟩
  rw [hd]
  constructor
  · intro h0
    have h0 : cText b = b := by injection h0
    rw [← h0]
    exact cText_no_nul b
  · intro h0
    rw [cText_of_no_nul b h0]

/-- C69. The text does not tell a NUL from a backslash and a zero digit: two byte strings can give the same
C string. -/
theorem C69_ambiguous : bstrUtilStrdupToC (fun _ => true) (some [97, 0]) =
    bstrUtilStrdupToC (fun _ => true) (some (b! "a\\0")) := by decide +kernel

theorem iterCmp_lt : ∀ s t : Bytes, iterCmp s t = .lt ↔ s < t := by
  intro s
  induction s with
  | nil => intro t; cases t <;> simp [iterCmp]
  | cons a s ih =>
    intro t
    cases t with
    | nil => simp [iterCmp]
    | cons b t =>
      rw [List.cons_lt_cons_iff, ← ih t]
      show (if a < b then Ordering.lt else if a = b then iterCmp s t else .gt) = .lt ↔ _
      by_cases h1 : a < b
      · simp [h1]
      · by_cases h2 : a = b
        · simp [h2]
        · simp [h1, h2]

/-- C69. `bstr_cmp_c` compares with the C string as byte strings are compared: 0 if they are equal, -1 if
the first is a proper prefix or smaller at the first difference, 1 otherwise. -/
theorem C69_cmp (b text mem : Bytes) (h : CString (mem.map some) text) :
    ∃ n, bstrCmpC (some b) (some mem) = .ok n ∧ (n = 0 ↔ b = text) ∧ (n = -1 ↔ b < text) ∧
      (n = 1 ↔ text < b) := by
  refine ⟨orderingToC (cmpSlice b text), ?_, ?_⟩
  · unfold bstrCmpC
    rw [cStr_of_CString h]
    rfl
  · have e : cmpSlice b text = .eq ↔ b = text := iterCmp_eq b text
    have l : cmpSlice b text = .lt ↔ b < text := iterCmp_lt b text
    have g : cmpSlice b text = .gt ↔ text < b := by
      rw [← iterCmp_lt text b, iterCmp_swap b text]
      show iterCmp b text = .gt ↔ _
      cases iterCmp b text <;> simp [Ordering.swap]
    rw [← e, ← l, ← g]
    cases cmpSlice b text <;> simp [orderingToC]

/-- C69. `bstr_cmp_c_nocase` is 0 exactly for strings equal up to ASCII case. -/
theorem C69_cmp_nocase (b text mem : Bytes) (h : CString (mem.map some) text) :
    ∃ n, bstrCmpCNocase (some b) (some mem) = .ok n ∧ (n = 0 ↔ EqNocase b text) := by
  refine ⟨orderingToC (cmpNocase b text), ?_, ?_⟩
  · unfold bstrCmpCNocase
    rw [cStr_of_CString h]
    rfl
  · rw [← C01_cmp_nocase_eq_iff]
    cases cmpNocase b text <;> simp [orderingToC]

/-- A string with a NUL is never equal to a C string. -/
example (b text mem : Bytes) (h : CString (mem.map some) text) (h0 : 0 ∈ b) : b ≠ text :=
  fun hb => h.1 (hb ▸ h0)

/-- Case for C69: what is handed out for the bytes `a NUL b`, and how it compares. -/
example : bstrUtilStrdupToC (fun n => n ≤ 5) (some [97, 0, 98]) =
      .ok (some ([97, 92, 48, 98, 0].map some)) ∧
    CString ([97, 92, 48, 98, 0].map some) (b! "a\\0b") ∧
    bstrUtilStrdupToC (fun n => n ≤ 4) (some [97, 0, 98]) = .ok none ∧
    bstrCmpC (some (b! "GET")) (some (b! "GET" ++ [0] ++ b! "rubbish")) = .ok 0 ∧
    bstrCmpC (some (b! "GET")) (some (b! "GETS" ++ [0])) = .ok (-1) ∧
    bstrCmpCNocase (some (b! "get")) (some (b! "GET" ++ [0])) = .ok 0 ∧
    bstrCmpC (some (b! "GET")) (some (b! "GET")) = .error .bounds := by
  refine ⟨by decide +kernel, ⟨by decide +kernel, by decide +kernel⟩, by decide +kernel, by decide +kernel,
    by decide +kernel, by decide +kernel, by decide +kernel⟩

end Props

/-
C13: removal of dot segments.
-/
import Verif.Model.UriSplit
import Verif.Spec.DotSegments
import Verif.Lemmas.Nom
import Verif.Lemmas.Span
import Verif.Lemmas.Form

namespace Props
open Model Spec Spec.DotSegments

theorem joinSlash_eq : ∀ l, joinSlash l = join 47 l
  | [] => rfl
  | [a] => rfl
  | a :: b :: rest => by simp [joinSlash, join, joinSlash_eq (b :: rest)]

/-- What the stack can look like. -/
def GoodOut (out : List Bytes) : Prop := ∀ p ∈ out, 47 ∉ p ∧ p ≠ b! "." ∧ p ≠ b! ".."

theorem dotStep_good {out : List Bytes} {seg : Bytes} (h : GoodOut out) (hs : 47 ∉ seg) :
    GoodOut (dotStep out seg) := by
  unfold dotStep
  split
  · exact h
  · split
    · split
      · exact fun p hp => h p (List.dropLast_subset _ hp)
      · exact h
    · rename_i h1 h2
      intro p hp
      rcases List.mem_append.mp hp with hp | hp
      · exact h p hp
      · simp at hp; subst hp; exact ⟨hs, h1, h2⟩

theorem foldl_good : ∀ (segs : List Bytes) (out : List Bytes), GoodOut out → (∀ s ∈ segs, 47 ∉ s) →
    GoodOut (segs.foldl dotStep out) := by
  intro segs
  induction segs with
  | nil => intro out h _; exact h
  | cons s segs ih =>
    intro out h hs
    exact ih _ (dotStep_good h (hs s (by simp))) fun s' h' => hs s' (by simp [h'])

theorem normalize_out (s : Bytes) : ∃ out, GoodOut out ∧ normalizeUriPath s = join 47 out ∧
    (splitOn 47 s).foldl dotStep [] = out :=
  ⟨_, foldl_good _ [] (by simp [GoodOut]) (splitOn_no_sep 47 s), joinSlash_eq _, rfl⟩

/-- The segments of the normalized path: those on the stack, or one empty segment. -/
theorem normalize_segments (s : Bytes) {segs : List Bytes} (hne : segs ≠ []) (hns : ∀ p ∈ segs, 47 ∉ p)
    (h : join 47 segs = normalizeUriPath s) :
    segs = (splitOn 47 s).foldl dotStep [] ∨ segs = [[]] := by
  obtain ⟨out, h1, h2, h3⟩ := normalize_out s
  rw [h3]
  cases out with
  | nil =>
    right
    rw [h2] at h
    have := splitOn_join 47 segs hne hns
    rw [h] at this
    simpa [join, splitOn] using this.symm
  | cons a out =>
    left
    have e1 := splitOn_join 47 segs hne hns
    have e2 := splitOn_join 47 (a :: out) (by simp) (fun p hp => (h1 p hp).1)
    rw [h, h2, e2] at e1
    exact e1.symm

/-- C13: no segment of a normalized path is "." or "..": however the result is written as segments
without slashes joined with slashes. -/
theorem C13_no_dot_segments (s : Bytes) (segs : List Bytes) (hne : segs ≠ []) (hns : ∀ p ∈ segs, 47 ∉ p)
    (h : join 47 segs = normalizeUriPath s) : b! "." ∉ segs ∧ b! ".." ∉ segs := by
  obtain ⟨out, h1, h2, h3⟩ := normalize_out s
  rcases normalize_segments s hne hns h with h4 | h4
  · rw [h4, h3]
    exact ⟨fun hm => (h1 _ hm).2.1 rfl, fun hm => (h1 _ hm).2.2 rfl⟩
  · rw [h4]; decide

theorem foldl_no_dots : ∀ (segs out : List Bytes), b! "." ∉ segs → b! ".." ∉ segs →
    segs.foldl dotStep out = out ++ segs := by
  intro segs
  induction segs with
  | nil => intro out _ _; simp
  | cons s segs ih =>
    intro out h1 h2
    simp only [List.mem_cons, not_or] at h1 h2
    rw [List.foldl_cons, ih _ h1.2 h2.2, dotStep, if_neg (Ne.symm h1.1), if_neg (Ne.symm h2.1)]
    simp

/-- C13: a path without dot segments is unchanged. -/
theorem C13_no_dots_unchanged (segs : List Bytes) (hne : segs ≠ []) (hns : ∀ p ∈ segs, 47 ∉ p)
    (h1 : b! "." ∉ segs) (h2 : b! ".." ∉ segs) : normalizeUriPath (join 47 segs) = join 47 segs := by
  rw [normalizeUriPath, splitOn_join 47 segs hne hns, foldl_no_dots _ _ h1 h2, joinSlash_eq]
  simp

/-- C13: normalization is idempotent. -/
theorem C13_idempotent (s : Bytes) : normalizeUriPath (normalizeUriPath s) = normalizeUriPath s := by
  have h := join_splitOn 47 (normalizeUriPath s)
  have hd := C13_no_dot_segments s _ (splitOn_ne_nil _ _) (splitOn_no_sep 47 (normalizeUriPath s)) h
  have := C13_no_dots_unchanged _ (splitOn_ne_nil _ _) (splitOn_no_sep 47 (normalizeUriPath s)) hd.1 hd.2
  rwa [h] at this

theorem join_length : ∀ l : List Bytes, (join 47 l).length + 1 = if l = [] then 1 else (l.map (·.length + 1)).sum
  | [] => by simp [join]
  | [a] => by simp [join]
  | a :: b :: rest => by
    have := join_length (b :: rest)
    simp [join] at this ⊢
    omega

theorem sum_dropLast : ∀ l : List Bytes, (l.dropLast.map (·.length + 1)).sum ≤ (l.map (·.length + 1)).sum
  | [] => by simp
  | [a] => by simp
  | a :: b :: rest => by
    have := sum_dropLast (b :: rest)
    simp at this ⊢
    omega

theorem foldl_sum : ∀ (segs out : List Bytes), ((segs.foldl dotStep out).map (·.length + 1)).sum ≤
    (out.map (·.length + 1)).sum + (segs.map (·.length + 1)).sum := by
  intro segs
  induction segs with
  | nil => intro out; simp
  | cons s segs ih =>
    intro out
    have h1 := ih (dotStep out s)
    have h2 : ((dotStep out s).map (·.length + 1)).sum ≤ (out.map (·.length + 1)).sum + (s.length + 1) := by
      unfold dotStep
      split
      · omega
      · split
        · split
          · have := sum_dropLast out; omega
          · omega
        · simp
    simp only [List.foldl_cons, List.map_cons, List.sum_cons]
    omega

/-- C13: normalization never lengthens the path. -/
theorem C13_never_grows (s : Bytes) : (normalizeUriPath s).length ≤ s.length := by
  obtain ⟨out, _, h2, h3⟩ := normalize_out s
  have h4 := foldl_sum (splitOn 47 s) []
  have h5 := join_length (splitOn 47 s)
  rw [join_splitOn, if_neg (splitOn_ne_nil _ _)] at h5
  have h6 := join_length out
  rw [h3] at h4
  rw [h2]
  split at h6
  · omega
  · simp at h4; omega

theorem dotStep_abs (rest : List Bytes) (seg : Bytes) : ∃ rest', dotStep ([] :: rest) seg = [] :: rest' := by
  unfold dotStep
  split
  · exact ⟨_, rfl⟩
  · split
    · cases rest with
      | nil => exact ⟨[], rfl⟩
      | cons a r => exact ⟨(a :: r).dropLast, by simp⟩
    · exact ⟨rest ++ [seg], rfl⟩

theorem foldl_abs : ∀ (segs rest : List Bytes), ∃ rest', segs.foldl dotStep ([] :: rest) = [] :: rest' := by
  intro segs
  induction segs with
  | nil => intro rest; exact ⟨rest, rfl⟩
  | cons s segs ih =>
    intro rest
    obtain ⟨r, h⟩ := dotStep_abs rest s
    rw [List.foldl_cons, h]
    exact ih r

/-- C13: an absolute path stays absolute or becomes empty. -/
theorem C13_stays_absolute (s : Bytes) :
    normalizeUriPath (47 :: s) = [] ∨ ∃ t, normalizeUriPath (47 :: s) = 47 :: t := by
  obtain ⟨r, h⟩ := foldl_abs (splitOn 47 s) []
  have h0 : (splitOn 47 (47 :: s)).foldl dotStep [] = [] :: r := by
    rw [splitOn, if_pos rfl, List.foldl_cons]; exact h
  rw [normalizeUriPath, joinSlash_eq, h0]
  cases r with
  | nil => exact Or.inl rfl
  | cons a r => exact Or.inr ⟨join 47 (a :: r), rfl⟩

/-! ### Comparison with RFC 3986 -/

/-- The RFC's output buffer for a stack of segments. -/
def slashed (out : List Bytes) : Bytes := (out.map (47 :: ·)).flatten

theorem slashed_append (a b : List Bytes) : slashed (a ++ b) = slashed a ++ slashed b := by simp [slashed]

theorem join_slashed : ∀ out : List Bytes, join 47 ([] :: out) = slashed out
  | [] => rfl
  | [a] => by simp [join, slashed]
  | a :: b :: rest => by
    have := join_slashed (b :: rest)
    simp only [join, slashed, List.nil_append, List.map_cons, List.flatten_cons, List.cons_append] at this ⊢
    rw [this]

theorem removeLast_slashed (out : List Bytes) (h : ∀ p ∈ out, 47 ∉ p) :
    removeLastSegment (slashed out) = slashed out.dropLast := by
  rcases List.eq_nil_or_concat out with rfl | ⟨init, a, rfl⟩
  · rfl
  · have ha : 47 ∉ a := h a (by simp)
    have := span_of_append (p := fun c => decide (c ≠ 47)) (a := a.reverse) (b := 47 :: (slashed init).reverse)
      (by intro c hc; simp; rintro rfl; exact ha (by simpa using hc)) (by simp)
    simp only [List.concat_eq_append, slashed_append, removeLastSegment, List.dropLast_concat]
    have hr : (slashed init ++ slashed [a]).reverse = a.reverse ++ 47 :: (slashed init).reverse := by
      simp [slashed]
    rw [hr, this.2]
    simp

theorem round_same (seg : Bytes) (more o : Bytes) (hm : ∀ c ∈ more.head?, c = 47) (hs : 47 ∉ seg)
    (h1 : seg ≠ b! ".") (h2 : seg ≠ b! "..") : round (47 :: (seg ++ more), o) = (more, o ++ 47 :: seg) := by
  have tk : (seg ++ more).takeWhile (fun c => decide (c ≠ 47)) = seg :=
    (span_of_append (p := fun c => decide (c ≠ 47))
      (by intro c hc; simp; rintro rfl; exact hs hc) (by intro c hc; simp [hm c hc])).1
  have fs : firstSegment (47 :: (seg ++ more)) = 47 :: seg := by simp only [firstSegment, tk]
  have hdot : ∀ d : Bytes, 47 ∉ d → seg ≠ d → ¬ (47 :: d ++ [47]) <+: 47 :: (seg ++ more) := by
    rintro d hd hne ⟨t, ht⟩
    simp at ht
    have e1 := (span_of_append (p := fun c => decide (c ≠ 47)) (a := d) (b := 47 :: t)
      (by intro c hc; simp; rintro rfl; exact hd hc) (by simp)).1
    rw [ht, tk] at e1
    exact hne e1
  have hdot' : ∀ d : Bytes, 47 ∉ d → seg ≠ d → ¬ 47 :: (seg ++ more) = 47 :: d := by
    intro d hd hne ht
    simp at ht
    have e1 := (span_of_append (p := fun c => decide (c ≠ 47)) (a := d) (b := [])
      (by intro c hc; simp; rintro rfl; exact hd hc) (by simp)).1
    rw [List.append_nil] at e1
    rw [ht, e1] at tk
    exact hne tk.symm
  have e3 : ¬ b! "/./" <+: 47 :: (seg ++ more) := hdot (b! ".") (by decide) h1
  have e4 : ¬ 47 :: (seg ++ more) = b! "/." := hdot' (b! ".") (by decide) h1
  have e5 : ¬ b! "/../" <+: 47 :: (seg ++ more) := hdot (b! "..") (by decide) h2
  have e6 : ¬ 47 :: (seg ++ more) = b! "/.." := hdot' (b! "..") (by decide) h2
  have e7 : ¬ (47 :: (seg ++ more) = b! "." ∨ 47 :: (seg ++ more) = b! "..") := by simp
  show ite _ _ _ = _
  rw [if_neg e3, if_neg e4, if_neg e5, if_neg e6, if_neg e7, fs]
  simp

theorem reaches_slash (o : Bytes) : round (b! "/", o) = ([], o ++ b! "/") :=
  round_same [] [] o (by simp) (by simp) (by decide) (by decide)

/-- Whether the last segment is a dot segment. -/
def endsInDot (segs : List Bytes) : Prop := segs.getLast? = some (b! ".") ∨ segs.getLast? = some (b! "..")

instance (segs : List Bytes) : Decidable (endsInDot segs) := by unfold endsInDot; infer_instance

theorem join_cons_more (a : Bytes) (rest : List Bytes) :
    join 47 (a :: rest) = a ++ (if rest = [] then [] else 47 :: join 47 rest) := by
  cases rest with
  | nil => simp [join]
  | cons b r => simp [join]

theorem dotStep_abs_eq (out : List Bytes) (seg : Bytes) : dotStep ([] :: out) seg =
    [] :: (if seg = b! "." then out else if seg = b! ".." then out.dropLast else out ++ [seg]) := by
  unfold dotStep
  split
  · rfl
  · split
    · cases out with
      | nil => rfl
      | cons a r => simp
    · rfl

theorem rfc_segments : ∀ (segs out : List Bytes), segs ≠ [] → (∀ s ∈ segs, 47 ∉ s) → (∀ s ∈ out, 47 ∉ s) →
    ∃ n, Nat.repeat round n (47 :: join 47 segs, slashed out) =
      ([], join 47 (segs.foldl dotStep ([] :: out)) ++ if endsInDot segs then b! "/" else []) := by
  have hrep : ∀ n x, Nat.repeat round (n + 1) x = Nat.repeat round n (round x) := by
    intro n
    induction n with
    | zero => intro x; rfl
    | succ n ih => intro x; rw [Nat.repeat, ih]; rfl
  intro segs
  induction segs with
  | nil => intro out h; exact absurd rfl h
  | cons s rest ih =>
    intro out _ hs ho
    have hs1 : 47 ∉ s := hs s (by simp)
    have hs2 : ∀ s ∈ rest, 47 ∉ s := fun s h => hs s (by simp [h])
    rw [join_cons_more, List.foldl_cons, dotStep_abs_eq]
    by_cases hr : rest = []
    · subst hr
      simp only [if_true, List.append_nil, List.foldl_nil]
      by_cases h1 : s = b! "."
      · subst h1
        refine ⟨2, ?_⟩
        rw [hrep, hrep, show round (47 :: b! ".", slashed out) = (b! "/", slashed out) from rfl, reaches_slash]
        simp [Nat.repeat, join_slashed, endsInDot]
      · by_cases h2 : s = b! ".."
        · subst h2
          refine ⟨2, ?_⟩
          rw [hrep, hrep, show round (47 :: b! "..", slashed out) = (b! "/", removeLastSegment (slashed out)) from rfl,
            reaches_slash, removeLast_slashed _ ho]
          simp [Nat.repeat, join_slashed, endsInDot]
        · refine ⟨1, ?_⟩
          rw [hrep]
          have := round_same s [] (slashed out) (by simp) hs1 h1 h2
          rw [List.append_nil] at this
          rw [this, if_neg h1, if_neg h2, join_slashed, slashed_append]
          have : ¬ endsInDot [s] := by
            simp only [endsInDot, List.getLast?_singleton, Option.some.injEq, not_or]; exact ⟨h1, h2⟩
          simp [Nat.repeat, slashed, this]
    · rw [if_neg hr]
      have hend : endsInDot (s :: rest) ↔ endsInDot rest := by
        cases rest with
        | nil => exact absurd rfl hr
        | cons b r => simp [endsInDot]
      simp only [hend]
      by_cases h1 : s = b! "."
      · subst h1
        obtain ⟨n, hn⟩ := ih out hr hs2 ho
        refine ⟨n + 1, ?_⟩
        rw [hrep, if_pos rfl, ← hn]
        congr 1
      · by_cases h2 : s = b! ".."
        · subst h2
          obtain ⟨n, hn⟩ := ih out.dropLast hr hs2 (fun s h => ho s (List.dropLast_subset _ h))
          refine ⟨n + 1, ?_⟩
          rw [hrep, if_neg (by decide), if_pos rfl, ← hn, ← removeLast_slashed _ ho]
          congr 1
        · obtain ⟨n, hn⟩ := ih (out ++ [s]) hr hs2 (by
            intro p hp
            rcases List.mem_append.mp hp with hp | hp
            · exact ho p hp
            · simp at hp; subst hp; exact hs1)
          refine ⟨n + 1, ?_⟩
          rw [hrep, if_neg h1, if_neg h2, ← hn, round_same s _ _ (by simp) hs1 h1 h2, slashed_append]
          simp [slashed]

/-- C13: on absolute paths the code computes the RFC 3986 result, except that when the path ends in a
dot segment it leaves out the final slash. -/
theorem C13_agrees_with_rfc3986 (segs : List Bytes) (hne : segs ≠ []) (hns : ∀ p ∈ segs, 47 ∉ p) :
    Removes (47 :: join 47 segs) (normalizeUriPath (47 :: join 47 segs) ++
      if segs.getLast? = some (b! ".") ∨ segs.getLast? = some (b! "..") then b! "/" else []) := by
  obtain ⟨n, hn⟩ := rfc_segments segs [] hne hns (by simp)
  refine ⟨n, ?_⟩
  rw [show slashed [] = [] from rfl] at hn
  rw [hn, normalizeUriPath, splitOn, if_pos rfl, splitOn_join 47 segs hne hns, joinSlash_eq]
  rfl

/-- The RFC result is unique, so the above determines it. -/
theorem removes_unique {p t t' : Bytes} (h : Removes p t) (h' : Removes p t') : t = t' := by
  have hfix : ∀ k o, Nat.repeat round k ([], o) = ([], o) := by
    intro k o
    induction k with
    | zero => rfl
    | succ k ih =>
      rw [Nat.repeat, ih]
      simp [round, firstSegment]
  have hadd : ∀ k n x, Nat.repeat round (n + k) x = Nat.repeat round k (Nat.repeat round n x) := by
    intro k n x
    induction k with
    | zero => rfl
    | succ k ih => rw [← Nat.add_assoc, Nat.repeat, ih]; rfl
  obtain ⟨n, hn⟩ := h
  obtain ⟨m, hm⟩ := h'
  rcases Nat.le_total n m with hle | hle
  · obtain ⟨k, rfl⟩ := Nat.exists_eq_add_of_le hle
    rw [hadd, hn, hfix] at hm
    simpa using hm
  · obtain ⟨k, rfl⟩ := Nat.exists_eq_add_of_le hle
    rw [hadd, hm, hfix] at hn
    simpa using hn.symm

/-- Finding: the doc comment says the function implements RFC 3986 5.2.4; it does not for "/a/..". -/
theorem C13_not_rfc3986 : Removes (b! "/a/..") (b! "/") ∧ normalizeUriPath (b! "/a/..") = [] :=
  ⟨⟨3, by decide⟩, by decide⟩

/-- Finding: a relative path can become absolute. -/
theorem C13_relative_becomes_absolute : normalizeUriPath (b! "a/..//b") = b! "/b" := by decide

example : normalizeUriPath (b! "/a/./b/../../../c//d") = b! "/c//d" := by decide

end Props

/-
C07: host name validation.
-/
import Verif.Lemmas.Nom
import Verif.Spec.Host

namespace Props
open Model Spec Nom

theorem isHostChar_iff : ∀ c : UInt8, isHostChar c = true ↔ HostChar c := by decide +kernel

theorem dots_iff (s : Bytes) :
    ((¬ [46] <+: s ∧ ¬ [46, 46] <:+: s) ↔ ∀ l ∈ (splitOn 46 s).dropLast, l ≠ []) ∧
    (¬ [46, 46] <:+: s ↔ ∀ l ∈ (splitOn 46 s).tail.dropLast, l ≠ []) := by
  induction s with
  | nil => simp [splitOn]
  | cons c cs ih =>
    by_cases h : c = 46
    · subst h
      have hs : splitOn 46 (46 :: cs) = [] :: splitOn 46 cs := by simp [splitOn]
      rw [hs]
      constructor
      · rw [List.dropLast_cons_of_ne_nil (splitOn_ne_nil 46 cs)]
        constructor
        · rintro ⟨h1, _⟩; exact absurd ⟨cs, rfl⟩ h1
        · intro h; exact absurd rfl (h [] (by simp))
      · rw [List.tail_cons, ← ih.1, List.infix_cons_iff, not_or, List.cons_prefix_cons]
        simp
    · obtain ⟨seg, rest, h1, h2⟩ := splitOn_cons_ne cs h
      rw [h2]
      rw [h1] at ih
      have hinf : ¬ [46, 46] <:+: c :: cs ↔ ¬ [46, 46] <:+: cs := by
        rw [List.infix_cons_iff, List.cons_prefix_cons]
        simp [Ne.symm h]
      have hpre : ¬ [46] <+: c :: cs := by
        rw [List.cons_prefix_cons]; simp [Ne.symm h]
      constructor
      · simp only [hpre, not_false_eq_true, true_and]
        rw [hinf, ih.2]
        cases rest with
        | nil => simp
        | cons r rest => simp
      · rw [hinf, ih.2]; simp

/-- What `validate_hostname` does on an input that does not start with a bracket. -/
theorem validate_plain (ip : Bytes → Option Bool) (s : Bytes) (h : ¬ [91] <+: s) :
    validateHostname ip s = true ↔ HostName s := by
  have htag : tag (b! "[") s = .err := (tag_err_iff _ _).mpr h
  have hlab : (∃ labels, labels ≠ [] ∧ join 46 labels = s ∧
      (∀ l ∈ labels, l.length ≤ 63 ∧ ∀ c ∈ l, HostChar c) ∧ (∀ l ∈ labels.dropLast, l ≠ [])) ↔
      (∀ l ∈ splitOn 46 s, l.length ≤ 63 ∧ ∀ c ∈ l, HostChar c) ∧
        (∀ l ∈ (splitOn 46 s).dropLast, l ≠ []) := by
    constructor
    · rintro ⟨labels, h1, h2, h3, h4⟩
      have hdot : ¬ HostChar 46 := by decide
      have : splitOn 46 s = labels := by
        rw [← h2]
        exact splitOn_join 46 labels h1 (fun p hp hd => hdot ((h3 p hp).2 46 hd))
      rw [this]; exact ⟨h3, h4⟩
    · rintro ⟨h1, h2⟩
      exact ⟨splitOn 46 s, splitOn_ne_nil 46 s, join_splitOn 46 s, h1, h2⟩
  unfold HostName
  rw [hlab, ← (dots_iff s).1]
  unfold validateHostname
  by_cases hne : s = []
  · simp [hne]
  by_cases hlen : s.length > 255
  · simp [hne, hlen]; omega
  have hbr : (Nom.bind (tag (b! "[")) (fun _ =>
            Nom.bind (isNot (b! "#?/]")) fun addr =>
            Nom.map (tag (b! "]")) fun _ => addr) s) = .err := by
    simp only [Nom.bind, htag]
  rw [hbr]
  have hd1 : (tag (b! ".") s).isOk = decide ([46] <+: s) := by
    cases ht : tag (b! ".") s with
    | ok r v =>
      rw [tag_ok_iff] at ht
      simp [ht.1, IRes.isOk]
    | err => simp [IRes.isOk, (tag_err_iff _ _).mp ht]
    | incomplete => unfold tag at ht; split at ht <;> simp at ht
  have hd2 : (takeUntil (b! "..") s).isOk = decide ([46, 46] <:+: s) := by
    have := takeUntil_isOk (b! "..") s
    cases ht : takeUntil (b! "..") s with
    | ok r v => simp [IRes.isOk, this.mp ⟨r, v, ht⟩]
    | err => rw [ht] at this; simp [IRes.isOk] at this ⊢; exact this
    | incomplete => rw [ht] at this; simp [IRes.isOk] at this ⊢; exact this
  simp only [hne, hlen, decide_false, Bool.or_false, Bool.false_eq_true, if_false, hd1, hd2]
  have hall : ((splitOn 46 s).all fun sec => !(decide (sec.length > 63)) && sec.all isHostChar) = true ↔
      (∀ l ∈ splitOn 46 s, l.length ≤ 63 ∧ ∀ c ∈ l, HostChar c) := by
    simp only [List.all_eq_true, Bool.and_eq_true, Bool.not_eq_true', decide_eq_false_iff_not,
      isHostChar_iff, Nat.not_lt, gt_iff_lt]
  split
  · rename_i hd
    simp only [Bool.or_eq_true, decide_eq_true_eq] at hd
    simp only [Bool.false_eq_true, false_iff]
    rintro ⟨_, _, _, h5, h6⟩
    rcases hd with hd | hd
    · exact h5 hd
    · exact h6 hd
  · rename_i hd
    simp only [Bool.or_eq_true, decide_eq_true_eq, not_or] at hd
    rw [hall]
    constructor
    · intro h3; exact ⟨hne, by omega, h3, hd⟩
    · exact fun h => h.2.2.1

/-- C07: a host that does not start with '[' is accepted exactly when it is a host name in the sense
of the specification. -/
theorem C07_validate_hostname (ip : Bytes → Option Bool) (s : Bytes) (h : s.head? ≠ some 91) :
    validateHostname ip s = true ↔ HostName s := by
  apply validate_plain
  rintro ⟨r, rfl⟩
  simp at h

/-- C07: a host that starts with '[' is accepted exactly when the bracketed text (no '#', '?', '/' or
']' inside) is an IPv6 address, whatever follows the closing bracket. -/
theorem C07_validate_bracketed (ip : Bytes → Option Bool) (s : Bytes) (h : s.head? = some 91) :
    validateHostname ip s = true ↔
      s.length ≤ 255 ∧ ∃ addr rest, s = 91 :: addr ++ 93 :: rest ∧ addr ≠ [] ∧
        (∀ c ∈ addr, c ∉ b! "#?/]") ∧ ip addr = some true := by
  obtain ⟨s', rfl⟩ : ∃ s', s = 91 :: s' := by
    cases s with
    | nil => simp at h
    | cons a s' => simp at h; exact ⟨s', by rw [h]⟩
  -- without an IPv6 verdict the bracket itself is not a host character
  have hfall : ((splitOn 46 (91 :: s')).all fun sec =>
      !(decide (sec.length > 63)) && sec.all isHostChar) = false := by
    obtain ⟨seg, rest, _, h2⟩ := splitOn_cons_ne (sep := 46) (c := 91) s' (by decide)
    rw [h2]
    have : isHostChar 91 = false := by decide
    simp [this]
  have hsp : ∀ addr rest, s' = addr ++ 93 :: rest → (∀ c ∈ addr, c ∉ b! "#?/]") →
      s'.takeWhile (fun c => !(b! "#?/]").contains c) = addr ∧
      s'.dropWhile (fun c => !(b! "#?/]").contains c) = 93 :: rest := by
    intro addr rest h1 h2
    rw [h1]
    apply span_of_append
    · intro c hc; simpa using h2 c hc
    · intro c hc; simp at hc; subst hc; decide
  have hbr : Nom.bind (tag (b! "[")) (fun _ =>
            Nom.bind (isNot (b! "#?/]")) fun addr =>
            Nom.map (tag (b! "]")) fun _ => addr) (91 :: s') =
      (Nom.bind (isNot (b! "#?/]")) fun addr => Nom.map (tag (b! "]")) fun _ => addr) s' := by
    have := tag_append (b! "[") s'
    simp only [List.cons_append, List.nil_append] at this
    simp only [Nom.bind, this]
  unfold validateHostname
  rw [hbr]
  by_cases hlen : (91 :: s').length > 255
  · have : ¬ (91 :: s').length ≤ 255 := by omega
    rw [if_pos (by simp only [hlen, decide_true, Bool.or_true])]
    simp only [Bool.false_eq_true, this, false_and]
  simp only [List.cons_ne_nil, decide_false, hlen, Bool.or_false, Bool.false_eq_true, if_false, hfall]
  have hle : (91 :: s').length ≤ 255 := by omega
  simp only [hle, true_and]
  have hif : ∀ b : Bool, (if b = true then false else false) = false := by intro b; cases b <;> rfl
  simp only [hif]
  constructor
  · intro hv
    split at hv
    · rename_i b hb
      subst hv
      split at hb
      · rename_i r addr hp
        simp only [Nom.bind, isNot, takeWhile1] at hp
        split at hp
        · rename_i r1 v1 h1
          split at h1
          · simp at h1
          · rename_i hnn
            injection h1 with h1 h2
            subst h1; subst h2
            simp only [Nom.map] at hp
            split at hp
            · rename_i r2 v2 h3
              rw [tag_ok_iff] at h3
              injection hp with hp1 hp2
              subst hp1; subst hp2
              refine ⟨_, r2, ?_, hnn, ?_, hb⟩
              · have := List.takeWhile_append_dropWhile (p := fun c => !(b! "#?/]").contains c) (l := s')
                rw [h3.1] at this
                simp only [List.cons_append, List.nil_append] at this ⊢
                rw [this]
              · intro c hc
                have := takeWhile_all _ _ c hc
                simpa using this
            · simp at hp
            · simp at hp
        · simp at hp
        · simp at hp
      · simp at hb
    · simp at hv
  · rintro ⟨addr, rest, h1, h2, h3, h4⟩
    simp only [List.cons_append, List.cons.injEq, true_and] at h1
    obtain ⟨h5, h6⟩ := hsp addr rest h1 h3
    have ht := tag_append (b! "]") rest
    simp only [List.cons_append, List.nil_append] at ht
    have : (Nom.bind (isNot (b! "#?/]")) fun addr => Nom.map (tag (b! "]")) fun _ => addr) s' =
        .ok rest addr := by
      simp only [Nom.bind, isNot, takeWhile1, h5, h6, h2, if_false, Nom.map, ht]
    rw [this]; simp [h4]

example : HostName (b! "www.exa_mple-1.com.") :=
  (C07_validate_hostname (fun _ => none) _ (by decide)).mp (by decide +kernel)
example : ¬ HostName (b! "www..example.com") :=
  fun h => absurd ((C07_validate_hostname (fun _ => none) _ (by decide)).mpr h) (by decide +kernel)
example : validateHostname (fun a => some (a == b! "::1")) (b! "[::1]junk") = true := by decide +kernel

end Props

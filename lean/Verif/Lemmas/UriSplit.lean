/-
Lemmas about the URI component parsers.
-/
import Verif.Model.UriSplit
import Verif.Spec.UriText
import Verif.Lemmas.Nom
import Verif.Lemmas.Span

namespace Model
open Nom Spec Spec.UriText

theorem isNot_ok {set i r v : Bytes} (h : isNot set i = .ok r v) :
    i = v ++ r ∧ v ≠ [] ∧ (∀ c ∈ v, c ∉ set) ∧ ∀ c ∈ r.head?, c ∈ set := by
  simp only [isNot, takeWhile1] at h
  split at h
  · simp at h
  · rename_i hne
    simp only [IRes.ok.injEq] at h
    obtain ⟨rfl, rfl⟩ := h
    refine ⟨(List.takeWhile_append_dropWhile).symm, hne, ?_, ?_⟩
    · intro c hc
      have := takeWhile_all _ _ _ hc
      simpa using this
    · intro c hc
      have := List.head?_dropWhile_not (fun c => !set.contains c) i
      rw [Option.mem_def] at hc
      rw [hc] at this
      simpa using this

theorem isNot_mk {set r v : Bytes} (hv : v ≠ []) (h1 : ∀ c ∈ v, c ∉ set) (h2 : ∀ c ∈ r.head?, c ∈ set) :
    isNot set (v ++ r) = .ok r v := by
  have := span_of_append (p := fun c => !set.contains c) (a := v) (b := r)
    (by intro c hc; simpa using h1 c hc) (by intro c hc; simpa using h2 c hc)
  simp only [isNot, takeWhile1, this.1, this.2, if_neg hv]

theorem isNot_cases (set i : Bytes) : (isNot set i = .err ∧ ∀ c ∈ i.head?, c ∈ set) ∨
    ∃ r v, isNot set i = .ok r v := by
  by_cases h : i.takeWhile (fun c => !set.contains c) = []
  · left
    refine ⟨by simp only [isNot, takeWhile1, if_pos h], ?_⟩
    cases i with
    | nil => simp
    | cons c i =>
      intro d hd
      simp at hd; subst hd
      by_cases hn : c ∈ set
      · exact hn
      · simp [hn] at h
  · right
    exact ⟨_, _, by simp only [isNot, takeWhile1, if_neg h]; rfl⟩

theorem isNot_err {set i : Bytes} (h : ∀ c ∈ i.head?, c ∈ set) : isNot set i = .err := by
  rcases isNot_cases set i with ⟨h1, _⟩ | ⟨r, v, h1⟩
  · exact h1
  · obtain ⟨rfl, hv, h2, _⟩ := isNot_ok h1
    cases v with
    | nil => exact absurd rfl hv
    | cons c v => exact absurd (h c (by simp)) (h2 c (by simp))

theorem tag_cases (t i : Bytes) : (tag t i = .err ∧ ¬ t <+: i) ∨ ∃ r, i = t ++ r ∧ tag t i = .ok r t := by
  by_cases h : t <+: i
  · obtain ⟨r, rfl⟩ := h
    exact Or.inr ⟨r, rfl, tag_append t r⟩
  · exact Or.inl ⟨(tag_err_iff t i).mpr h, h⟩

theorem single_prefix (c : UInt8) (i : Bytes) : [c] <+: i ↔ i.head? = some c := by
  cases i with
  | nil => simp
  | cons d i => simp [eq_comm]

theorem peekNotSlash (i : Bytes) : peek (Nom.not (tag (b! "/"))) i =
    if i.head? = some 47 then .err else .ok i () := by
  rcases tag_cases (b! "/") i with ⟨h1, h2⟩ | ⟨r, rfl, h1⟩
  · rw [single_prefix] at h2
    simp only [peek, Nom.not, h1, if_neg h2]
  · simp only [List.cons_append, List.nil_append] at h1
    simp only [List.cons_append, List.nil_append, peek, Nom.not, h1]
    simp

/-! ### path, query, fragment -/

/-- The tail parsers never fail; this is what they compute. -/
theorem tail_parse (i : Bytes) : ∃ rest p q f,
    Nom.pair (opt path) (Nom.pair (opt query) (opt fragment)) i = .ok rest (p, q, f) ∧ TailParts p q ∧
    ((rest = [] ∧ i = tailText p q f) ∨
     (∃ r, i = part [] p ++ 63 :: r ∧ (∀ c ∈ r.head?, c = 35) ∧ q = none ∧ f = none)) := by
  have frag : ∀ i : Bytes, (∃ f, opt fragment i = .ok [] (some f) ∧ i = 35 :: f) ∨
      (opt fragment i = .ok i none ∧ i.head? ≠ some 35) := by
    intro i
    rcases tag_cases (b! "#") i with ⟨h1, h2⟩ | ⟨r, rfl, h1⟩
    · right; rw [single_prefix] at h2; exact ⟨by simp [opt, fragment, h1], h2⟩
    · simp only [List.cons_append, List.nil_append] at h1
      left; exact ⟨r, by simp [opt, fragment, h1], rfl⟩
  have quer : ∀ i : Bytes, (∃ q r, opt query i = .ok r (some q) ∧ i = 63 :: (q ++ r) ∧ q ≠ [] ∧ 35 ∉ q ∧
      ∀ c ∈ r.head?, c = 35) ∨
      (opt query i = .ok i none ∧ (i.head? ≠ some 63 ∨ ∃ r, i = 63 :: r ∧ ∀ c ∈ r.head?, c = 35)) := by
    intro i
    rcases tag_cases (b! "?") i with ⟨h1, h2⟩ | ⟨r, rfl, h1⟩
    · right; rw [single_prefix] at h2
      exact ⟨by simp [opt, query, Nom.bind, h1], Or.inl h2⟩
    · simp only [List.cons_append, List.nil_append] at h1
      rcases isNot_cases (b! "#") r with ⟨h2, h3⟩ | ⟨r', q, h2⟩
      · right
        exact ⟨by simp [opt, query, Nom.bind, h1, h2], Or.inr ⟨r, rfl, by simpa using h3⟩⟩
      · left
        obtain ⟨rfl, h3, h4, h5⟩ := isNot_ok h2
        exact ⟨q, r', by simp [opt, query, Nom.bind, h1, h2], rfl, h3, by
          intro hm; exact h4 35 hm (by decide), by simpa using h5⟩
  have pth : (∃ p r, opt path i = .ok r (some p) ∧ i = p ++ r ∧ p ≠ [] ∧ 63 ∉ p ∧ 35 ∉ p ∧
      ∀ c ∈ r.head?, c = 35 ∨ c = 63) ∨ (opt path i = .ok i none ∧ ∀ c ∈ i.head?, c = 35 ∨ c = 63) := by
    rcases isNot_cases (b! "#?") i with ⟨h2, h3⟩ | ⟨r', p, h2⟩
    · right; exact ⟨by simp [opt, path, h2], by simpa using h3⟩
    · left
      obtain ⟨rfl, h3, h4, h5⟩ := isNot_ok h2
      exact ⟨p, r', by simp [opt, path, h2], rfl, h3, fun hm => h4 63 hm (by decide),
        fun hm => h4 35 hm (by decide), by simpa using h5⟩
  have rest : ∀ (pp : Option Bytes) (j : Bytes), (pp ≠ some []) → (∀ p, pp = some p → 63 ∉ p ∧ 35 ∉ p) →
      i = part [] pp ++ j → opt path i = .ok j pp → (∀ c ∈ j.head?, c = 35 ∨ c = 63) →
      ∃ rest p q f,
      Nom.pair (opt path) (Nom.pair (opt query) (opt fragment)) i = .ok rest (p, q, f) ∧ TailParts p q ∧
      ((rest = [] ∧ i = tailText p q f) ∨
       (∃ r, i = part [] p ++ 63 :: r ∧ (∀ c ∈ r.head?, c = 35) ∧ q = none ∧ f = none)) := by
    intro pp j hp1 hp2 hi ho hj
    rcases quer j with ⟨q, r, h1, h2, h3, h4, h5⟩ | ⟨h1, h2⟩
    · rcases frag r with ⟨f, h6, h7⟩ | ⟨h6, h7⟩
      · refine ⟨[], pp, some q, some f, by simp [Nom.pair, Nom.bind, Nom.map, ho, h1, h6], ⟨hp1, hp2, by simpa using h3, ?_⟩,
          Or.inl ⟨rfl, by rw [hi, h2, h7]; simp [tailText, part]⟩⟩
        intro q' hq'; cases hq'; exact h4
      · have : r = [] := by
          cases r with
          | nil => rfl
          | cons c r => have := h5 c (by simp); subst this; exact absurd rfl h7
        subst this
        refine ⟨[], pp, some q, none, by simp [Nom.pair, Nom.bind, Nom.map, ho, h1, h6], ⟨hp1, hp2, by simpa using h3, ?_⟩,
          Or.inl ⟨rfl, by rw [hi, h2]; simp [tailText, part]⟩⟩
        intro q' hq'; cases hq'; exact h4
    · rcases h2 with h2 | ⟨r, rfl, h2⟩
      · rcases frag j with ⟨f, h6, h7⟩ | ⟨h6, h7⟩
        · exact ⟨[], pp, none, some f, by simp [Nom.pair, Nom.bind, Nom.map, ho, h1, h6], ⟨hp1, hp2, by simp, by simp⟩,
            Or.inl ⟨rfl, by rw [hi, h7]; simp [tailText, part]⟩⟩
        · have : j = [] := by
            cases j with
            | nil => rfl
            | cons c r =>
              rcases hj c (by simp) with h | h
              · subst h; exact absurd rfl h7
              · subst h; exact absurd rfl h2
          subst this
          exact ⟨[], pp, none, none, by simp [Nom.pair, Nom.bind, Nom.map, ho, h1, h6], ⟨hp1, hp2, by simp, by simp⟩,
            Or.inl ⟨rfl, by rw [hi]; simp [tailText, part]⟩⟩
      · rcases frag (63 :: r) with ⟨f, h6, h7⟩ | ⟨h6, h7⟩
        · simp at h7
        · exact ⟨63 :: r, pp, none, none, by simp [Nom.pair, Nom.bind, Nom.map, ho, h1, h6], ⟨hp1, hp2, by simp, by simp⟩,
            Or.inr ⟨r, hi, h2, rfl, rfl⟩⟩
  rcases pth with ⟨p, r, h1, h2, h3, h4, h5, h6⟩ | ⟨h1, h2⟩
  · exact rest (some p) r (by simpa using h3) (by intro p' hp'; cases hp'; exact ⟨h4, h5⟩) h2 h1 h6
  · exact rest none i (by simp) (by simp) rfl h1 h2

/-! ### scheme and authority -/

theorem scheme_cases (i : Bytes) : (scheme i = .err ∧ (i.head? = some 47 ∨ 58 ∉ i)) ∨
    ∃ s r, scheme i = .ok r s ∧ i = s ++ 58 :: r ∧ 58 ∉ s ∧ i.head? ≠ some 47 := by
  by_cases h1 : i.head? = some 47
  · left; exact ⟨by simp [scheme, Nom.bind, peekNotSlash, h1], Or.inl h1⟩
  · by_cases h2 : 58 ∈ i
    · right
      have e := takeUntil_single 58 i
      rw [if_pos h2] at e
      obtain ⟨h3, h4, _⟩ := takeUntil_ok _ _ _ _ e
      obtain ⟨r, h4⟩ := h4
      have h5 : 58 ∉ i.takeWhile (fun c => c != 58) := fun hm => by simpa using takeWhile_all _ _ _ hm
      refine ⟨_, r, ?_, by rw [← List.singleton_append, h4]; exact h3, h5, h1⟩
      have h6 : tag (b! ":") (i.dropWhile (fun c => c != 58)) = .ok r (b! ":") := by
        rw [← h4]; exact tag_append _ _
      simp [scheme, Nom.bind, Nom.map, peekNotSlash, h1, e, h6]
    · left
      refine ⟨?_, Or.inr h2⟩
      have e := takeUntil_single 58 i
      rw [if_neg h2] at e
      simp [scheme, Nom.bind, peekNotSlash, h1, e]

/-- `opt(credentials())` never fails and this is what it takes. -/
theorem credentials_cases (i : Bytes) :
    (∃ r u p t, opt credentials i = .ok r (some (u, p)) ∧ i = t ++ r ∧ CredText (some u) p t) ∨
    opt credentials i = .ok i none := by
  rcases tag_cases (b! "//") i with ⟨h1, h2⟩ | ⟨r, rfl, h1⟩
  · right; simp [opt, credentials, Nom.bind, h1]
  · simp only [List.cons_append, List.nil_append] at h1
    by_cases hs : r.head? = some 47
    · right; simp [opt, credentials, Nom.bind, h1, peekNotSlash, hs]
    · by_cases ha : 64 ∈ r
      · left
        have e := takeUntil_single 64 r
        rw [if_pos ha] at e
        obtain ⟨h3, ⟨r', h4⟩, _⟩ := takeUntil_ok _ _ _ _ e
        generalize hc : r.takeWhile (fun c => c != 64) = cred at e h3
        have h5 : 64 ∉ cred := fun hm => by rw [← hc] at hm; simpa using takeWhile_all _ _ _ hm
        have h6 : tag (b! "@") (r.dropWhile (fun c => c != 64)) = .ok r' (b! "@") := by
          rw [← h4]; exact tag_append _ _
        have hr : r = cred ++ 64 :: r' := by rw [h3, ← h4]; simp
        by_cases hcol : 58 ∈ cred
        · have e2 := takeUntil_single 58 cred
          rw [if_pos hcol] at e2
          obtain ⟨h7, ⟨pw, h8⟩, _⟩ := takeUntil_ok _ _ _ _ e2
          generalize hu : cred.takeWhile (fun c => c != 58) = user at e2 h7
          have h9 : tag (b! ":") (cred.dropWhile (fun c => c != 58)) = .ok pw (b! ":") := by
            rw [← h8]; exact tag_append _ _
          have hcr : cred = user ++ 58 :: pw := by rw [h7, ← h8]; simp
          have hu' : 58 ∉ user := fun hm => by rw [← hu] at hm; simpa using takeWhile_all _ _ _ hm
          have hm1 : 64 ∉ user := fun hm => h5 (by rw [hcr]; simp [hm])
          have hm2 : 64 ∉ pw := fun hm => h5 (by rw [hcr]; simp [hm])
          refine ⟨r', user, some pw, b! "//" ++ user ++ part (b! ":") (some pw) ++ b! "@", ?_, ?_, rfl, hu', hm1, ?_⟩
          · simp [opt, credentials, Nom.bind, Nom.map, h1, peekNotSlash, hs, e, h6, e2, h9]
          · rw [hr, hcr]; simp [part]
          · intro p hp; cases hp; exact hm2
        · have e2 := takeUntil_single 58 cred
          rw [if_neg hcol] at e2
          refine ⟨r', cred, none, b! "//" ++ cred ++ part (b! ":") none ++ b! "@", ?_, ?_, rfl, hcol, h5, by simp⟩
          · simp [opt, credentials, Nom.bind, Nom.map, h1, peekNotSlash, hs, e, h6, e2]
          · rw [hr]; simp [part]
      · right
        have e := takeUntil_single 64 r
        rw [if_neg ha] at e
        simp [opt, credentials, Nom.bind, h1, peekNotSlash, hs, e]

theorem many0Space_eq (i : Bytes) : ∃ s r, many0Space i = .ok r s ∧ i = s ++ r ∧ Spaces s ∧ r.head? ≠ some 32 := by
  refine ⟨i.takeWhile (· == 32), i.dropWhile (· == 32), rfl, List.takeWhile_append_dropWhile.symm, ?_, ?_⟩
  · intro c hc; simpa using takeWhile_all _ _ _ hc
  · have := List.head?_dropWhile_not (· == (32 : UInt8)) i
    intro h; rw [h] at this; simp at this

theorem ipv6_suffix {i r v : Bytes} (h : ipv6 i = .ok r v) : i = v ++ r := by
  unfold ipv6 at h
  generalize hq : Nom.bind (tag (b! "[")) _ i = q at h
  cases q with
  | err => simp at h
  | incomplete => simp at h
  | ok r' x =>
    simp only [IRes.ok.injEq] at h
    obtain ⟨rfl, rfl⟩ := h
    have : r' <:+ i := by
      simp only [Nom.bind] at hq
      rcases tag_cases (b! "[") i with ⟨h1, _⟩ | ⟨r, rfl, h1⟩
      · rw [h1] at hq; simp at hq
      · simp only [List.cons_append, List.nil_append] at h1
        simp only [List.cons_append, List.nil_append, h1] at hq
        rcases isNot_cases (b! "/?#]") r with ⟨h2, _⟩ | ⟨r2, v2, h2⟩
        · rw [h2] at hq; simp at hq
        · obtain ⟨rfl, _⟩ := isNot_ok h2
          rw [h2] at hq
          rcases tag_cases (b! "]") r2 with ⟨h3, _⟩ | ⟨r3, rfl, h3⟩
          · simp [opt, h3] at hq
            rw [← hq.1]; exact ⟨b! "[" ++ v2, by simp⟩
          · simp only [List.cons_append, List.nil_append] at h3
            simp only [opt, List.cons_append, List.nil_append, h3, IRes.ok.injEq] at hq
            rw [← hq.1]; exact ⟨b! "[" ++ v2 ++ b! "]", by simp⟩
    obtain ⟨p, rfl⟩ := this
    simp

/-- `opt(tuple((hostname(), opt(port()))))` never fails and this is what it takes. -/
theorem hostport_cases (i : Bytes) :
    (∃ r h p th tp, opt (Nom.pair hostname (opt port)) i = .ok r (some (h, p)) ∧ i = th ++ tp ++ r ∧
      HostText (some h) th ∧ PortText p tp) ∨
    opt (Nom.pair hostname (opt port)) i = .ok i none := by
  have prt : ∀ j : Bytes, ∃ p t r, opt port j = .ok r p ∧ j = t ++ r ∧ PortText p t := by
    intro j
    rcases tag_cases (b! ":") j with ⟨h1, _⟩ | ⟨r, rfl, h1⟩
    · exact ⟨none, [], j, by simp [opt, port, Nom.bind, h1], rfl, rfl⟩
    · simp only [List.cons_append, List.nil_append] at h1
      obtain ⟨s1, r1, h2, rfl, h3, h4⟩ := many0Space_eq r
      rcases isNot_cases (b! "/?#") r1 with ⟨h5, _⟩ | ⟨r2, p, h5⟩
      · exact ⟨none, [], _, by simp [opt, port, Nom.bind, h1, h2, h5], rfl, rfl⟩
      · obtain ⟨rfl, hp, h6, h7⟩ := isNot_ok h5
        obtain ⟨s2, r3, h8, rfl, h9, h10⟩ := many0Space_eq r2
        rcases isNot_cases (b! " ") p with ⟨h11, h12⟩ | ⟨r4, p', h11⟩
        · exfalso
          cases p with
          | nil => exact hp rfl
          | cons c p => have := h12 c (by simp); simp at this; subst this; exact h4 rfl
        · obtain ⟨rfl, h13, h14, h15⟩ := isNot_ok h11
          refine ⟨some p', b! ":" ++ s1 ++ p' ++ (r4 ++ s2), r3,
            by simp only [opt, port, Nom.bind, Nom.map, List.cons_append, List.nil_append, h1, h2, h5, h8, h11], by simp, s1, r4 ++ s2, h3, ?_,
            (fun hm => h14 32 hm (by decide)), h13, rfl⟩
          intro c hc
          cases r4 with
          | nil =>
            cases s2 with
            | nil => simp at hc
            | cons d s => simp at hc; subst hc; exact h9 _ (by simp)
          | cons d r => simp at hc; subst hc; have := h15 d (by simp); simpa using this
  have host : ∀ j : Bytes, hostname j = .err ∨ ∃ h t r, hostname j = .ok r h ∧ j = t ++ r ∧ HostText (some h) t := by
    intro j
    have lead : ∃ o l r, opt (tag (b! "//")) j = .ok r o ∧ j = l ++ r ∧ (l = [] ∨ l = b! "//") := by
      rcases tag_cases (b! "//") j with ⟨h1, _⟩ | ⟨r, rfl, h1⟩
      · exact ⟨none, [], j, by simp [opt, h1], rfl, Or.inl rfl⟩
      · simp only [List.cons_append, List.nil_append] at h1
        exact ⟨some (b! "//"), b! "//", r, by simp [opt, h1], rfl, Or.inr rfl⟩
    obtain ⟨o, l, r, h1, rfl, hl⟩ := lead
    by_cases hs : r.head? = some 47
    · left; simp [hostname, Nom.map, Nom.bind, h1, peekNotSlash, hs]
    · obtain ⟨s1, r1, h2, rfl, h3, h4⟩ := many0Space_eq r
      have fin : ∀ h r2, alt ipv6 (isNot (b! "/?#:")) r1 = .ok r2 h → r1 = h ++ r2 →
          ∃ h' t r', hostname (l ++ (s1 ++ r1)) = .ok r' h' ∧ l ++ (s1 ++ r1) = t ++ r' ∧ HostText (some h') t := by
        intro h r2 h5 h6
        obtain ⟨post, hp1, hp2, _⟩ := dropLastWhile_split (· == 32) h
        refine ⟨dropLastWhile (· == 32) h, l ++ s1 ++ dropLastWhile (· == 32) h ++ post, r2,
          by simp only [hostname, Nom.map, Nom.bind, h1, peekNotSlash, if_neg hs, h2, h5], ?_, l, s1, post, hl, h3, ?_, rfl⟩
        · rw [h6, List.append_assoc (l ++ s1), ← hp1]; simp
        · intro c hc; simpa using hp2 c hc
      cases h5 : ipv6 r1 with
      | ok r2 h => right; exact fin h r2 (by simp [alt, h5]) (ipv6_suffix h5)
      | err =>
        rcases isNot_cases (b! "/?#:") r1 with ⟨h6, _⟩ | ⟨r2, h, h6⟩
        · left; simp only [hostname, Nom.map, Nom.bind, h1, peekNotSlash, if_neg hs, h2, alt, h5, h6]
        · right; exact fin h r2 (by simp [alt, h5, h6]) (isNot_ok h6).1
      | incomplete =>
        exfalso
        unfold ipv6 at h5
        simp only [Nom.bind] at h5
        rcases tag_cases (b! "[") r1 with ⟨h1, _⟩ | ⟨r, rfl, h1⟩
        · simp [h1] at h5
        · simp only [List.cons_append, List.nil_append] at h1
          simp only [List.cons_append, List.nil_append, h1] at h5
          rcases isNot_cases (b! "/?#]") r with ⟨h2, _⟩ | ⟨r2, v2, h2⟩
          · simp [h2] at h5
          · rw [h2] at h5
            rcases tag_cases (b! "]") r2 with ⟨h3, _⟩ | ⟨r3, rfl, h3⟩
            · simp [opt, h3] at h5
            · simp only [List.cons_append, List.nil_append] at h3
              simp [opt, h3] at h5
  rcases host i with h | ⟨h, t, r, h1, rfl, h2⟩
  · right; simp [opt, Nom.pair, Nom.bind, h]
  · obtain ⟨p, tp, r', h3, rfl, h4⟩ := prt r
    left
    refine ⟨r', h, p, t, tp, ?_, by simp, h2, h4⟩
    have : Nom.pair hostname (opt port) (t ++ (tp ++ r')) = .ok r' (h, p) := by
      simp only [Nom.pair, Nom.bind, Nom.map, h1, h3]
    rw [opt, this]

end Model

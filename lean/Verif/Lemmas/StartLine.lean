/-
Lemmas about taking a request or response line apart.
-/
import Verif.Model.TxParse
import Verif.Spec.StartLine
import Verif.Lemmas.Span

namespace Props
open Model Spec

theorem head?_append_ne {a b : Bytes} (h : a ≠ []) : (a ++ b).head? = a.head? := by
  cases a with
  | nil => exact absurd rfl h
  | cons x a => rfl

theorem getLast?_append_ne {a b : Bytes} (h : b ≠ []) : (a ++ b).getLast? = b.getLast? := by
  rw [← List.head?_reverse, List.reverse_append, head?_append_ne (by simpa using h), List.head?_reverse]

theorem isSpace_blank (c : UInt8) : isSpace c = true ↔ Blank c := by
  revert c; decide +kernel

theorem isSpace_not_blank (c : UInt8) : isSpace c = false ↔ ¬ Blank c := by
  rw [← isSpace_blank]; simp

theorem trimmed_surrounded {x a y : Bytes} (hx : Blanks x) (ha : Trim a) (hy : Blanks y) :
    trimmed (x ++ a ++ y) = a := by
  have h1 : trimStart (x ++ a ++ y) = a ++ y := by
    rw [trimStart_eq, List.append_assoc]
    refine (span_of_append (fun c hc => (isSpace_blank c).mpr (hx c hc)) ?_).2
    intro c hc
    rw [head?_append_ne ha.nonempty] at hc
    exact (isSpace_not_blank c).mpr (ha.first c hc)
  rw [trimmed, h1]
  exact dropLastWhile_append (fun c hc => (isSpace_not_blank c).mpr (ha.last c hc))
    fun c hc => (isSpace_blank c).mpr (hy c hc)

theorem splitFirst_at {p : UInt8 → Bool} {a b : Bytes} {c : UInt8} (ha : ∀ x ∈ a, p x = false) (hc : p c = true) :
    splitFirst p (a ++ c :: b) = (a, some b) := by
  have h := span_of_append (p := fun c => !p c) (a := a) (b := c :: b) (fun x hx => by simp [ha x hx])
    (fun x hx => by simp at hx; subst hx; simp [hc])
  rw [splitFirst, h.1, h.2]

theorem splitFirst_none {p : UInt8 → Bool} {a : Bytes} (ha : ∀ x ∈ a, p x = false) :
    splitFirst p a = (a, none) := by
  have h := span_of_append (p := fun c => !p c) (a := a) (b := []) (fun x hx => by simp [ha x hx]) (by simp)
  rw [List.append_nil] at h
  rw [splitFirst, h.2]

/-- The first byte of a list with a property. -/
theorem split_at_first {p : UInt8 → Bool} {l : Bytes} (h : ∃ c ∈ l, p c = true) :
    ∃ a c b, l = a ++ c :: b ∧ (∀ x ∈ a, p x = false) ∧ p c = true := by
  induction l with
  | nil => simp at h
  | cons x l ih =>
    by_cases hx : p x = true
    · exact ⟨[], x, l, rfl, by simp, hx⟩
    · obtain ⟨c, hc, hp⟩ := h
      rcases List.mem_cons.mp hc with rfl | hc
      · exact absurd hp hx
      · obtain ⟨a, c, b, rfl, h1, h2⟩ := ih ⟨c, hc, hp⟩
        refine ⟨x :: a, c, b, rfl, ?_, h2⟩
        intro y hy
        rcases List.mem_cons.mp hy with rfl | hy
        · simpa using hx
        · exact h1 y hy

theorem blanks_of_append_left {a b : Bytes} (h : Blanks (a ++ b)) : Blanks a := fun c hc => h c (by simp [hc])
theorem blanks_of_append_right {a b : Bytes} (h : Blanks (a ++ b)) : Blanks b := fun c hc => h c (by simp [hc])

/-- Splitting at the first byte with `p`, which is one of the separating blanks. -/
theorem splitOnPredicate_forward {p : UInt8 → Bool} {u sep v : Bytes} (hu : Trim u) (hv : Trim v) (hb : Blanks sep)
    (hp : ∃ c ∈ sep, p c = true) (hn : ∀ c ∈ u, p c = false) :
    splitOnPredicate (u ++ sep ++ v) false true p = (u, v) := by
  obtain ⟨a, c, b, rfl, h1, h2⟩ := split_at_first hp
  have h := splitFirst_at (p := p) (a := u ++ a) (b := b ++ v) (c := c)
    (fun x hx => by exact (List.mem_append.mp hx).elim (fun hx => hn x hx) (fun hx => h1 x hx)) h2
  have e : u ++ (a ++ c :: b) ++ v = u ++ a ++ c :: (b ++ v) := by simp
  rw [splitOnPredicate, e, h]
  have t1 := trimmed_surrounded (x := []) (y := a) (by simp [Blanks]) hu (blanks_of_append_left hb)
  have t2 := trimmed_surrounded (x := b) (y := []) (fun x hx => hb x (by simp [hx])) hv (by simp [Blanks])
  simp only [List.nil_append, List.append_nil] at t1 t2
  simp [t1, t2]

/-- Splitting at the last byte with `p`, which is one of the separating blanks. -/
theorem splitOnPredicate_backward {p : UInt8 → Bool} {u sep v : Bytes} (hu : Trim u) (hv : Trim v) (hb : Blanks sep)
    (hp : ∃ c ∈ sep, p c = true) (hn : ∀ c ∈ v, p c = false) :
    splitOnPredicate (u ++ sep ++ v) true true p = (u, v) := by
  obtain ⟨a, c, b, hs, h1, h2⟩ := split_at_first (p := p) (l := sep.reverse) (by simpa using hp)
  have h := splitFirst_at (p := p) (a := v.reverse ++ a) (b := b ++ u.reverse) (c := c)
    (fun x hx => by exact (List.mem_append.mp hx).elim (fun hx => hn x (by simpa using hx)) (fun hx => h1 x hx)) h2
  have e : (u ++ sep ++ v).reverse = v.reverse ++ a ++ c :: (b ++ u.reverse) := by simp [hs]
  have hb' : Blanks sep.reverse := fun c hc => hb c (by simpa using hc)
  rw [hs] at hb'
  rw [splitOnPredicate, e, h]
  have t1 := trimmed_surrounded (x := []) (y := b.reverse) (by simp [Blanks]) hu
    (fun x hx => hb' x (by simp at hx; simp [hx]))
  have t2 := trimmed_surrounded (x := a.reverse) (y := []) (fun x hx => hb' x (by simp at hx; simp [hx])) hv
    (by simp [Blanks])
  simp only [List.nil_append, List.append_nil] at t1 t2
  simp [t1, t2]

/-- Nothing to split at. -/
theorem splitOnPredicate_none {p : UInt8 → Bool} {u : Bytes} (rev : Bool) (hu : Trim u) (hn : ∀ c ∈ u, p c = false) :
    splitOnPredicate u rev true p = (u, []) := by
  have t1 := trimmed_surrounded (x := []) (y := []) (by simp [Blanks]) hu (by simp [Blanks])
  simp only [List.nil_append, List.append_nil] at t1
  have t2 : trimmed [] = [] := rfl
  cases rev
  · simp [splitOnPredicate, splitFirst_none hn, t1, t2]
  · simp [splitOnPredicate, splitFirst_none (p := p) (a := u.reverse) (by simpa using hn), t1, t2]

theorem _root_.Spec.Trim.append {u sep v : Bytes} (hu : Trim u) (hv : Trim v) : Trim (u ++ sep ++ v) where
  nonempty := by have := hu.nonempty; simp [this]
  first c hc := by
    rw [List.append_assoc, head?_append_ne hu.nonempty] at hc
    exact hu.first c hc
  last c hc := by
    rw [getLast?_append_ne hv.nonempty] at hc
    exact hv.last c hc

theorem splitUriProtocol_parts {e : TxEnv} {uri sep protocol trail : Bytes} (hu : Trim uri) (hv : Trim protocol)
    (hsep : Blanks sep) (ht : Blanks trail) (h : Separates e.cfg.decoderCfg.allowSpaceUri uri sep protocol) :
    Tx.splitUriProtocol e (uri ++ sep ++ protocol ++ trail) = (uri, protocol) := by
  have htrim : trimmed (uri ++ sep ++ protocol ++ trail) = uri ++ sep ++ protocol := by
    have := trimmed_surrounded (x := []) (y := trail) (by simp [Blanks]) (hu.append (sep := sep) hv) ht
    simpa using this
  have hlen : ¬ uri.length = (uri ++ sep ++ protocol).length := by
    have := List.length_pos_iff.mpr hv.nonempty
    simp only [List.length_append]; omega
  unfold Tx.splitUriProtocol
  simp only [htrim]
  rcases h with ⟨h1, h2⟩ | ⟨h1, h2, h3⟩
  · have hs : splitOnPredicate (uri ++ sep ++ protocol) e.cfg.decoderCfg.allowSpaceUri true (· == 32) =
        (uri, protocol) := by
      cases hr : e.cfg.decoderCfg.allowSpaceUri with
      | false =>
        rw [hr] at h2
        exact splitOnPredicate_forward hu hv hsep ⟨32, h1, rfl⟩ fun c hc => by
          simp; rintro rfl; exact h2 hc
      | true =>
        rw [hr] at h2
        exact splitOnPredicate_backward hu hv hsep ⟨32, h1, rfl⟩ fun c hc => by
          simp; rintro rfl; exact h2 hc
    rw [hs]
    exact if_neg fun h => hlen h.1
  · have hn := splitOnPredicate_none (p := (· == 32)) e.cfg.decoderCfg.allowSpaceUri (hu.append (sep := sep) hv)
      (fun c hc => by simp; rintro rfl; exact h2 hc)
    obtain ⟨c, hc⟩ := List.exists_mem_of_ne_nil sep h1
    have hsp := (isSpace_blank c).mpr (hsep c hc)
    rw [hn]
    have hany : (uri ++ sep ++ protocol).any isSpace = true := by
      rw [List.any_eq_true]; exact ⟨c, by simp [hc], hsp⟩
    simp only [hany, and_self, if_true]
    cases hr : e.cfg.decoderCfg.allowSpaceUri with
    | false =>
      rw [hr] at h3
      exact splitOnPredicate_forward hu hv hsep ⟨c, hc, hsp⟩ fun c hc => (isSpace_not_blank c).mpr (h3 c hc)
    | true =>
      rw [hr] at h3
      exact splitOnPredicate_backward hu hv hsep ⟨c, hc, hsp⟩ fun c hc => (isSpace_not_blank c).mpr (h3 c hc)

theorem splitUriProtocol_only {e : TxEnv} {uri trail : Bytes} (hu : uri ≠ []) (hw : Word uri) (ht : Blanks trail) :
    Tx.splitUriProtocol e (uri ++ trail) = (uri, []) := by
  have hutr : Trim uri := ⟨hu, fun c hc => hw c (List.mem_of_mem_head? hc), fun c hc => hw c (List.mem_of_mem_getLast? hc)⟩
  have htrim : trimmed (uri ++ trail) = uri := by
    have := trimmed_surrounded (x := []) (y := trail) (by simp [Blanks]) hutr ht
    simpa using this
  unfold Tx.splitUriProtocol
  simp only [htrim]
  rw [splitOnPredicate_none _ hutr fun c hc => by
    have := hw c hc
    simp; rintro rfl; exact this (by decide)]
  have hany : uri.any isSpace = false := by
    rw [List.any_eq_false]
    intro c hc
    simp [(isSpace_not_blank c).mpr (hw c hc)]
  simp [hany]

theorem requestLine_words {lead method gap rest : Bytes} (h1 : Blanks lead) (h2 : Word method) (h2' : method ≠ [])
    (h3 : Blanks gap) (h4 : ∀ c ∈ rest.head?, ¬ Blank c) (h5 : gap = [] → rest = []) :
    Nom.bind takeIsSpace (fun ls => Nom.bind takeNotIsSpace fun method =>
      Nom.map takeIsSpace fun _ => (ls, method)) (lead ++ method ++ gap ++ rest) = .ok rest (lead, method) := by
  have s1 := span_of_append (p := isSpace) (a := lead) (b := method ++ gap ++ rest)
    (fun c hc => (isSpace_blank c).mpr (h1 c hc)) (fun c hc => by
      rw [List.append_assoc, head?_append_ne h2'] at hc
      exact (isSpace_not_blank c).mpr (h2 c (List.mem_of_mem_head? hc)))
  have s2 := span_of_append (p := fun c => !isSpace c) (a := method) (b := gap ++ rest)
    (fun c hc => by simp [(isSpace_not_blank c).mpr (h2 c hc)]) (fun c hc => by
      cases gap with
      | nil => simp [h5 rfl] at hc
      | cons g gs => simp at hc; subst hc; simp [(isSpace_blank g).mpr (h3 g (by simp))])
  have s3 := span_of_append (p := isSpace) (a := gap) (b := rest)
    (fun c hc => (isSpace_blank c).mpr (h3 c hc)) (fun c hc => (isSpace_not_blank c).mpr (h4 c hc))
  have e : lead ++ method ++ gap ++ rest = lead ++ (method ++ gap ++ rest) := by simp
  have e2 : method ++ gap ++ rest = method ++ (gap ++ rest) := by simp
  rw [e]
  simp only [Nom.bind, Nom.map, takeIsSpace, takeNotIsSpace, Nom.takeWhile, s1]
  rw [e2]
  simp only [s2, s3]

theorem responseLine_words {lead protocol gap code ws rest : Bytes} (h1 : ∀ c ∈ lead, Blank c ∨ c = 0)
    (h2 : protocol ≠ []) (h3 : Word protocol) (h3' : ∀ c ∈ protocol.head?, c ≠ 0) (h4 : Blanks gap)
    (h5 : Word code) (h6 : ∀ c ∈ ws, Blank c ∧ c ≠ 11) (h7 : ∀ c ∈ rest.head?, ¬ (Blank c ∧ c ≠ 11))
    (h8 : gap = [] → code = []) (h9 : code = [] → ws ++ rest = []) (h10 : ws = [] → ∀ c ∈ rest.head?, Blank c) :
    Nom.bind takeIsSpaceOrNull (fun _ => Nom.bind takeNotIsSpace fun protocol =>
      Nom.bind takeIsSpace fun ws1 => Nom.bind takeNotIsSpace fun code =>
      Nom.map takeAsciiWhitespace fun ws2 => (protocol, ws1, code, ws2))
      (lead ++ protocol ++ gap ++ code ++ ws ++ rest) = .ok rest (protocol, gap, code, ws) := by
  have ha : ∀ c : UInt8, isAsciiWhitespace c = true ↔ (Blank c ∧ c ≠ 11) := by decide +kernel
  have s1 := span_of_append (p := fun c => isSpace c || c == 0) (a := lead) (b := protocol ++ (gap ++ (code ++ (ws ++ rest))))
    (fun c hc => by
      rcases h1 c hc with h | h
      · simp [(isSpace_blank c).mpr h]
      · simp [h]) (fun c hc => by
      rw [head?_append_ne h2] at hc
      have := (isSpace_not_blank c).mpr (h3 c (List.mem_of_mem_head? hc))
      have := h3' c hc
      simp [*])
  have s2 := span_of_append (p := fun c => !isSpace c) (a := protocol) (b := gap ++ (code ++ (ws ++ rest)))
    (fun c hc => by simp [(isSpace_not_blank c).mpr (h3 c hc)]) (fun c hc => by
      cases gap with
      | nil => rw [h8 rfl, h9 (h8 rfl)] at hc; simp at hc
      | cons g gs => simp at hc; subst hc; simp [(isSpace_blank g).mpr (h4 g (by simp))])
  have s3 := span_of_append (p := isSpace) (a := gap) (b := code ++ (ws ++ rest))
    (fun c hc => (isSpace_blank c).mpr (h4 c hc)) (fun c hc => by
      cases code with
      | nil => rw [h9 rfl] at hc; simp at hc
      | cons g gs => simp at hc; subst hc; simp [(isSpace_not_blank g).mpr (h5 g (by simp))])
  have s4 := span_of_append (p := fun c => !isSpace c) (a := code) (b := ws ++ rest)
    (fun c hc => by simp [(isSpace_not_blank c).mpr (h5 c hc)]) (fun c hc => by
      cases ws with
      | nil => simp [(isSpace_blank c).mpr (h10 rfl c hc)]
      | cons g gs => simp at hc; subst hc; simp [(isSpace_blank g).mpr (h6 g (by simp)).1])
  have s5 := span_of_append (p := isAsciiWhitespace) (a := ws) (b := rest)
    (fun c hc => (ha c).mpr (h6 c hc)) (fun c hc => by
      have := (not_congr (ha c)).mpr (h7 c hc)
      simpa using this)
  have e : lead ++ protocol ++ gap ++ code ++ ws ++ rest = lead ++ (protocol ++ (gap ++ (code ++ (ws ++ rest)))) := by
    simp
  rw [e]
  simp only [Nom.bind, Nom.map, takeIsSpace, takeIsSpaceOrNull, takeNotIsSpace, takeAsciiWhitespace, Nom.takeWhile, s1,
    s2, s3, s4, s5]

end Props

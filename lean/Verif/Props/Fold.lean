/-
C54: header fields folded over several lines.
-/
import Verif.Spec.HeaderFold
import Verif.Props.Header
import Verif.Lemmas.Flags
import Mathlib.Data.List.Forall2

namespace Props
open Model Spec Nom

theorem token_iff : ∀ c : UInt8, isToken c = true ↔ Tchar c := by decide +kernel
theorem blank_sp : ∀ c : UInt8, nomIsSpace c = true ↔ c = 32 ∨ c = 9 := by decide +kernel

theorem name_ok (n rest : Bytes) (hne : n ≠ []) (h : ∀ c ∈ n, Tchar c) :
    HeaderParser.name (n ++ 58 :: rest) = .ok (58 :: rest) { text := n, flags := 0 } := by
  have hn : ∀ d ∈ n, d ≠ 58 ∧ d ≠ 10 := fun d hd =>
    ⟨(tchar_facts d (h d hd)).2.2.2.1, (tchar_facts d (h d hd)).2.2.2.2.1⟩
  have hns := nameScan_token n rest hn 0
  simp only [Nat.zero_add] at hns
  simp only [HeaderParser.name, hns, List.drop_left, List.take_left]
  rw [FlaggedText.new, nameFlags_token hne h, trimmed_id]
  · intro d hd; exact (tchar_facts d (h d (List.mem_of_head? hd))).2.2.1
  · intro d hd; exact (tchar_facts d (h d (List.mem_of_getLast? hd))).2.2.1

/-- Taking bytes of a line stops at its end. -/
theorem takeWhileS_line {q : UInt8 → Bool} (hq : q 13 = false) (l x : Bytes) :
    takeWhileS q (l ++ 13 :: x) = .ok (l.dropWhile q ++ 13 :: x) (l.takeWhile q) := by
  have h1 : l ++ 13 :: x = l.takeWhile q ++ (l.dropWhile q ++ 13 :: x) := by
    rw [← List.append_assoc, List.takeWhile_append_dropWhile]
  have h2 := span_of_append (p := q) (a := l.takeWhile q) (b := l.dropWhile q ++ 13 :: x)
    (fun c hc => takeWhile_all q _ c hc) (by
      intro c hc
      cases hd : l.dropWhile q with
      | nil => rw [hd] at hc; simp only [List.nil_append, List.head?_cons, Option.mem_def, Option.some.injEq] at hc
               rw [← hc]; exact hq
      | cons a d =>
        rw [hd] at hc
        simp only [List.cons_append, List.head?_cons, Option.mem_def, Option.some.injEq] at hc
        rw [← hc]
        exact dropWhile_head q l a (by rw [hd]; rfl))
  unfold takeWhileS
  rw [h1, h2.1, h2.2]
  simp

theorem separator_ok (t x : Bytes) :
    HeaderParser.separator (58 :: (t ++ 13 :: x)) = .ok (t.dropWhile nomIsSpace ++ 13 :: x) 0 := by
  have h1 := tag_append [58] (t ++ 13 :: x)
  simp only [List.cons_append, List.nil_append] at h1
  simp only [HeaderParser.separator, separatorRegular, pair, Nom.map, Nom.bind, h1, space0,
    takeWhileS_line (q := nomIsSpace) (by decide)]

/-- The end of a line that is continued. -/
theorem folding_crlf (p : HeaderParser) (c : UInt8) (hc : c = 32 ∨ c = 9) (r : Bytes) :
    p.foldingOrTerminator (13 :: 10 :: c :: r) = .ok r (([13, 10], HFlag.FOLDING), some [c]) := by
  have h1 : foldingLws (c :: r) = .ok r ([c], HFlag.FOLDING) := by
    have ha : agrees id r [] = true := by cases r <;> rfl
    rcases hc with rfl | rfl <;> simp [foldingLws, Nom.map, alt, tagS, agrees, ha]
  have h2 : p.folding (13 :: 10 :: c :: r) = .ok r (([13, 10], HFlag.FOLDING), some [c]) := by
    unfold HeaderParser.folding
    cases hs : p.side
    · have := completeEol_crlf p (c :: r) (by intro h; rw [hs] at h; cases h)
      simp [Nom.bind, this, Nom.map, h1]
    · simp [Nom.bind, regular_crlf, Nom.map, h1]
  unfold HeaderParser.foldingOrTerminator
  cases p.complete
  · simp [HeaderParser.streamingFoldingOrTerminator, alt, h2]
  · simp [HeaderParser.completeFoldingOrTerminator, alt, complete, h2]

theorem valueBytes_of (p : HeaderParser) (v x y : Bytes) (z : (Bytes × Flags) × Option Bytes)
    (hv : ∀ d ∈ v, d ≠ 13 ∧ d ≠ 10) (ht : p.foldingOrTerminator (13 :: 10 :: x) = .ok y z) :
    p.valueBytes (v ++ 13 :: 10 :: x) = .ok y (v, z) := by
  unfold HeaderParser.valueBytes takeTillS
  cases hs : p.side with
  | request =>
    have h1 := span_of_append (p := fun c => !p.isEol c) (a := v ++ [13]) (b := 10 :: x)
      (by
        intro d hd
        simp only [List.mem_append, List.mem_singleton] at hd
        have : d ≠ 10 := by
          rcases hd with hd | hd
          · exact (hv d hd).2
          · subst hd; decide
        simp [HeaderParser.isEol, hs, this])
      (by simp [HeaderParser.isEol])
    simp only [List.append_assoc, List.cons_append, List.nil_append] at h1
    simp [takeWhileS, h1.1, h1.2, Nom.map, ht]
  | response =>
    have h1 := span_of_append (p := fun c => !p.isEol c) (a := v) (b := 13 :: 10 :: x)
      (by
        intro d hd
        have := hv d hd
        simp [HeaderParser.isEol, hs, this.1, this.2])
      (by simp [HeaderParser.isEol, hs])
    have h2 : v.getLast? ≠ some 13 := by
      intro he
      exact (hv 13 (List.mem_of_getLast? he)).1 rfl
    simp [takeWhileS, h1.1, h1.2, Nom.map, ht, h2]

/-- On the response side the parser looks whether a continuation line is a field of its own. -/
theorem peekName_go (p : HeaderParser) (l x : Bytes) (h : p.side = .response → ¬LooksLikeField l) :
    p.peekName (l ++ 13 :: 10 :: x) = .go := by
  unfold HeaderParser.peekName
  cases hs : p.side with
  | request => rfl
  | response =>
    have h := h hs
    have e1 := takeWhileS_line (q := nomIsSpace) (by decide) l (10 :: x)
    have e2 := takeWhileS_line (q := isToken) (by decide) (l.dropWhile nomIsSpace) (10 :: x)
    have e3 := takeWhileS_line (q := nomIsSpace) (by decide) ((l.dropWhile nomIsSpace).dropWhile isToken) (10 :: x)
    simp only [pair, Nom.bind, Nom.map, tokenChars, space0, e1, e2, e3, separatorRegular]
    generalize hd : ((l.dropWhile nomIsSpace).dropWhile isToken).dropWhile nomIsSpace = d
    cases d with
    | nil =>
      have : tag [58] (13 :: 10 :: x) = .err := tag_cons_ne (by decide)
      simp only [List.nil_append, this]
    | cons a d =>
      by_cases ha : a = 58
      · subst ha
        have h1 := tag_append [58] (d ++ 13 :: 10 :: x)
        simp only [List.cons_append, List.nil_append] at h1
        have e4 := takeWhileS_line (q := nomIsSpace) (by decide) d (10 :: x)
        simp only [List.cons_append, h1, e4]
        split
        · next hne =>
          exfalso
          refine h ⟨l.takeWhile nomIsSpace, (l.dropWhile nomIsSpace).takeWhile isToken,
            ((l.dropWhile nomIsSpace).dropWhile isToken).takeWhile nomIsSpace, d, ?_, hne, ?_, ?_, ?_⟩
          · rw [← hd]
            simp only [List.append_assoc, List.takeWhile_append_dropWhile]
          · intro c hc; exact (blank_sp c).1 (takeWhile_all _ _ c hc)
          · intro c hc; exact (token_iff c).1 (takeWhile_all _ _ c hc)
          · intro c hc; exact (blank_sp c).1 (takeWhile_all _ _ c hc)
        · rfl
      · have : tag [58] (a :: (d ++ 13 :: 10 :: x)) = .err := tag_cons_ne ha
        simp only [List.cons_append, this]

/-- The text the loop over the continuation lines puts together. -/
def joinFolds (acc : Bytes) : List (UInt8 × Bytes) → Bytes
  | [] => acc
  | (c, l) :: fs => joinFolds ((if acc ≠ [] then acc ++ [c] else acc) ++ l) fs

theorem trimmed_lead {b : Bytes} (hb : ∀ c ∈ b, isSpace c = true) (t : Bytes) : trimmed (b ++ t) = trimmed t := by
  unfold trimmed
  rw [trimStart_eq, trimStart_eq]
  congr 1
  induction b with
  | nil => rfl
  | cons c b ih =>
    rw [List.cons_append, List.dropWhile_cons, if_pos (hb c (by simp)), ih fun d hd => hb d (by simp [hd])]

theorem trimmed_joinFolds (fs : List (UInt8 × Bytes)) (h : ∀ x ∈ fs, x.1 = 32 ∨ x.1 = 9) (acc : Bytes) :
    trimmed (joinFolds acc fs) = trimmed (acc ++ (fs.map fun (c, l) => c :: l).flatten) := by
  have hsp : ∀ c : UInt8, c = 32 ∨ c = 9 → isSpace c = true := by decide +kernel
  induction fs generalizing acc with
  | nil => simp [joinFolds]
  | cons x fs ih =>
    obtain ⟨c, l⟩ := x
    unfold joinFolds
    rw [ih fun y hy => h y (by simp [hy])]
    by_cases ha : acc = []
    · subst ha
      have := trimmed_lead (b := [c]) (by simpa using hsp c (h (c, l) (by simp)))
        (l ++ (fs.map fun (c, l) => c :: l).flatten)
      simp only [ne_eq, not_true_eq_false, if_false, List.nil_append, List.map_cons, List.flatten_cons,
        List.cons_append] at this ⊢
      rw [this]
    · simp [ha]

/-- The loop over the continuation lines. -/
theorem valueLoop_folds (p : HeaderParser) (c : UInt8) (r : Bytes) (hp : PlainAfter p (c :: r))
    (hc : c ≠ 32 ∧ c ≠ 9 ∧ c ≠ 0) : ∀ (fs : List (UInt8 × Bytes)) (l acc : Bytes) (b : UInt8) (rest : Bytes) (fuel : Nat),
    fs.length < fuel → (∀ d ∈ l, d ≠ 13 ∧ d ≠ 10) → (∀ x ∈ fs, x.1 = 32 ∨ x.1 = 9) →
    (∀ x ∈ fs, ∀ d ∈ x.2, d ≠ 13 ∧ d ≠ 10) → (p.side = .response → ¬LooksLikeField l) →
    (p.side = .response → ∀ x ∈ fs, ¬LooksLikeField x.2) →
    p.valueLoop fuel rest (l ++ 13 :: 10 :: (renderFolds fs ++ c :: r)) acc [b] HFlag.FOLDING =
      .ok (c :: r) (FlaggedText.new (joinFolds acc ((b, l) :: fs)) HFlag.FOLDING) := by
  intro fs
  induction fs with
  | nil =>
    intro l acc b rest fuel hf hl _ _ hk _
    cases fuel with
    | zero => simp at hf
    | succ fuel =>
      unfold HeaderParser.valueLoop
      rw [peekName_go p l _ hk]
      have := valueBytes_of p l (c :: r) (c :: r) (([13, 10], 0), none) hl (terminator_crlf p c r hp hc)
      simp only [renderFolds, List.nil_append, this, setFlag_zero, HeaderParser.foldJoin, joinFolds]
      simp
  | cons x fs ih =>
    obtain ⟨c', l'⟩ := x
    intro l acc b rest fuel hf hl hb hfl hk hks
    cases fuel with
    | zero => simp at hf
    | succ fuel =>
      unfold HeaderParser.valueLoop
      rw [peekName_go p l _ hk]
      have h1 := valueBytes_of p l (c' :: (l' ++ 13 :: 10 :: (renderFolds fs ++ c :: r)))
        (l' ++ 13 :: 10 :: (renderFolds fs ++ c :: r)) (([13, 10], HFlag.FOLDING), some [c']) hl
        (folding_crlf p c' (hb (c', l') (by simp)) _)
      have h2 : l ++ 13 :: 10 :: (renderFolds ((c', l') :: fs) ++ c :: r) =
          l ++ 13 :: 10 :: c' :: (l' ++ 13 :: 10 :: (renderFolds fs ++ c :: r)) := by
        simp [renderFolds]
      rw [h2, h1]
      have h3 : setFlag HFlag.FOLDING HFlag.FOLDING = HFlag.FOLDING := by decide
      simp only [h3, HeaderParser.foldJoin]
      have h4 := ih l' ((if acc ≠ [] then acc ++ [b] else acc) ++ l) c'
        (l' ++ 13 :: 10 :: (renderFolds fs ++ c :: r)) fuel (by simp at hf; omega)
        (hfl (c', l') (by simp)) (fun x hx => hb x (by simp [hx])) (fun x hx => hfl x (by simp [hx]))
        (fun hs => hks hs (c', l') (by simp)) (fun hs x hx => hks hs x (by simp [hx]))
      simpa [joinFolds] using h4

/-- What the parser reports for a field. -/
def foldedHeader (f : Field) : ParsedHeader :=
  { name := { text := f.name, flags := 0 },
    value := {
      text := trimmed f.text
      flags := if f.folds ≠ [] then HFlag.FOLDING
        else if f.first.dropWhile nomIsSpace = [] then HFlag.VALUE_EMPTY else 0 } }

theorem trimmed_text (f : Field) :
    trimmed (f.first.dropWhile nomIsSpace ++ (f.folds.map fun (c, l) => c :: l).flatten) = trimmed f.text := by
  have hsp : ∀ c : UInt8, nomIsSpace c = true → isSpace c = true := by decide +kernel
  have := trimmed_lead (b := f.first.takeWhile nomIsSpace)
    (fun c hc => hsp c (takeWhile_all _ _ c hc))
    (f.first.dropWhile nomIsSpace ++ (f.folds.map fun (c, l) => c :: l).flatten)
  rw [← List.append_assoc, List.takeWhile_append_dropWhile] at this
  exact this.symm

theorem header_field (p : HeaderParser) (f : Field) (wf : f.WellFormed)
    (hk : p.side = .response → ∀ x ∈ f.folds, ¬LooksLikeField x.2) (c : UInt8) (r : Bytes)
    (hp : PlainAfter p (c :: r)) (hc : c ≠ 32 ∧ c ≠ 9 ∧ c ≠ 0) :
    p.header (f.render ++ c :: r) = .ok (c :: r) (foldedHeader f) := by
  have e : f.render ++ c :: r = f.name ++ 58 :: (f.first ++ 13 :: (10 :: (renderFolds f.folds ++ c :: r))) := by
    simp [Field.render]
  have hn := name_ok f.name (f.first ++ 13 :: (10 :: (renderFolds f.folds ++ c :: r))) wf.nonempty wf.token
  have hs := separator_ok f.first (10 :: (renderFolds f.folds ++ c :: r))
  have hw : ∀ d ∈ f.first.dropWhile nomIsSpace, d ≠ 13 ∧ d ≠ 10 := fun d hd =>
    wf.first_line d ((List.dropWhile_sublist _).subset hd)
  have hv : p.value (f.first.dropWhile nomIsSpace ++ 13 :: 10 :: (renderFolds f.folds ++ c :: r)) =
      .ok (c :: r) (foldedHeader f).value := by
    have htt := trimmed_text f
    cases hf : f.folds with
    | nil =>
      have h1 := valueBytes_of p _ (c :: r) (c :: r) (([13, 10], 0), none) hw (terminator_crlf p c r hp hc)
      simp only [renderFolds, List.nil_append, HeaderParser.value, h1, foldedHeader, hf, FlaggedText.new]
      rw [hf] at htt
      simp only [List.map_nil, List.flatten_nil, List.append_nil] at htt
      rw [htt]
      simp only [ne_eq, not_true_eq_false, if_false]
      congr
    | cons x fs =>
      obtain ⟨b, l⟩ := x
      have hb := wf.fold_blank
      have hfl := wf.fold_line
      rw [hf] at hb hfl hk
      have h1 := valueBytes_of p (f.first.dropWhile nomIsSpace) (b :: (l ++ 13 :: 10 :: (renderFolds fs ++ c :: r)))
        (l ++ 13 :: 10 :: (renderFolds fs ++ c :: r)) (([13, 10], HFlag.FOLDING), some [b]) hw
        (folding_crlf p b (hb (b, l) (by simp)) _)
      have h2 : renderFolds ((b, l) :: fs) ++ c :: r = b :: (l ++ 13 :: 10 :: (renderFolds fs ++ c :: r)) := by
        simp [renderFolds]
      have hlen : fs.length ≤ (renderFolds fs).length := by
        clear h1 h2 hf hb hfl hk
        induction fs with
        | nil => simp
        | cons x fs ih => simp only [renderFolds, List.length_cons, List.length_append]; omega
      have h3 := valueLoop_folds p c r hp hc fs l (f.first.dropWhile nomIsSpace) b
        (l ++ 13 :: 10 :: (renderFolds fs ++ c :: r)) ((l ++ 13 :: 10 :: (renderFolds fs ++ c :: r)).length + 1)
        (by simp only [List.length_append, List.length_cons]; omega)
        (hfl (b, l) (by simp)) (fun x hx => hb x (by simp [hx])) (fun x hx => hfl x (by simp [hx]))
        (fun hs => hk hs (b, l) (by simp)) (fun hs x hx => hk hs x (by simp [hx]))
      rw [h2]
      simp only [HeaderParser.value, h1, h3, foldedHeader, hf, FlaggedText.new]
      rw [trimmed_joinFolds _ hb, ← hf, htt]
      simp [hf]
  have hcolon : p.headerWithColon (f.render ++ c :: r) = .ok (c :: r) (foldedHeader f) := by
    rw [e]
    simp only [HeaderParser.headerWithColon, Nom.bind, hn, hs, Nom.map, hv]
    simp [foldedHeader]
  simp only [HeaderParser.header, alt, complete, hcolon]

theorem renderFields_head (fs : List Field) (h : ∀ x ∈ fs, x.WellFormed) (t : Bytes) :
    ∃ c r, renderFields fs ++ t = c :: r ∧ c ≠ 32 ∧ c ≠ 9 ∧ c ≠ 0 ∧ (c = 13 → r.head? = some 10) ∧
      (fs ≠ [] → c ≠ 13 ∧ c ≠ 10) := by
  cases fs with
  | nil => exact ⟨13, 10 :: t, by simp [renderFields], by decide, by decide, by decide, by simp, by simp⟩
  | cons x fs =>
    obtain ⟨name, first, folds⟩ := x
    have wf := h ⟨name, first, folds⟩ (by simp)
    cases name with
    | nil => exact absurd rfl wf.nonempty
    | cons c cs =>
      have hc := tchar_facts c (wf.token c (by simp))
      refine ⟨c, _, rfl, ?_, ?_, hc.2.2.2.2.2.2, fun e => absurd e hc.2.2.2.2.2.1,
        fun _ => ⟨hc.2.2.2.2.2.1, hc.2.2.2.2.1⟩⟩
      · rintro rfl; exact absurd hc.2.1 (by decide)
      · rintro rfl; exact absurd hc.2.1 (by decide)

theorem folded_not_null (f : Field) : isSet (foldedHeader f).value.flags HFlag.NULL_TERMINATED = false := by
  simp only [foldedHeader]
  split
  · decide
  · split <;> decide

theorem headersLoop_fields (p : HeaderParser) (t : Bytes) (ht : PlainAfter p t) :
    ∀ (fs : List Field), fs ≠ [] → (∀ x ∈ fs, x.WellFormed) →
      (p.side = .response → ∀ f ∈ fs, ∀ x ∈ f.folds, ¬LooksLikeField x.2) →
      ∀ (out : List ParsedHeader) (n : Nat), (renderFields fs ++ t).length < n →
      p.headersLoop n (renderFields fs ++ t) out = .ok t (out ++ fs.map foldedHeader, true) := by
  intro fs
  induction fs with
  | nil => intro h; simp at h
  | cons x fs ih =>
    intro _ hw hk out n hn
    obtain ⟨c, r, hcr, c1, c2, c3, c4, c5⟩ := renderFields_head fs (fun y hy => hw y (by simp [hy])) t
    have hpl : PlainAfter p (c :: r) := fun _ =>
      ⟨by simp [c1, c2], by simpa using c4⟩
    have hh := header_field p x (hw x (by simp)) (fun hs => hk hs x (by simp)) c r hpl ⟨c1, c2, c3⟩
    cases n with
    | zero => omega
    | succ n =>
      have hlen := (p.eats_header _ _ _ hh).2
      unfold HeaderParser.headersLoop
      simp only [renderFields, List.append_assoc] at hn ⊢
      rw [hcr] at hn ⊢
      simp only [hh]
      cases fs with
      | nil =>
        simp only [renderFields, List.cons_append, List.nil_append, List.cons.injEq] at hcr
        have : p.afterHeader (c :: r) (foldedHeader x) = some t := by
          rw [← hcr.1, ← hcr.2]
          simp [HeaderParser.afterHeader, folded_not_null, completeEol_crlf p t ht]
        rw [this]
        simp
      | cons y fs =>
        have hc := c5 (by simp)
        have : p.afterHeader (c :: r) (foldedHeader x) = none := by
          have h2 := afterHeader_none p ⟨[], [], [], []⟩ r hc
          unfold HeaderParser.afterHeader at h2 ⊢
          rw [folded_not_null]
          have h1 : isSet (recovered ⟨[], [], [], []⟩).value.flags HFlag.NULL_TERMINATED = false := by decide
          rw [h1] at h2
          exact h2
        rw [this, ← hcr]
        simp only
        rw [ih (by simp) (fun z hz => hw z (by simp [hz])) (fun hs z hz => hk hs z (by simp [hz])) _ _
          (by rw [hcr]; omega)]
        simp

theorem stripped_trimmed (t : Bytes) : Stripped t (trimmed t) := by
  obtain ⟨post, h1, h2, h3⟩ := dropLastWhile_split isSpace (trimStart t)
  refine ⟨t.takeWhile isSpace, post, ?_, ?_, ?_, ?_, ?_⟩
  · show t = t.takeWhile isSpace ++ dropLastWhile isSpace (trimStart t) ++ post
    rw [List.append_assoc, ← h1, trimStart_eq, List.takeWhile_append_dropWhile]
  · intro c hc; exact (blank_iff c).1 (takeWhile_all _ _ c hc)
  · intro c hc; exact (blank_iff c).1 (h2 c hc)
  · intro c hc hb
    have hb' := (blank_iff c).2 hb
    have h4 : c ∈ (trimStart t).head? := by
      rw [h1]
      have hc' : c ∈ (dropLastWhile isSpace (trimStart t)).head? := hc
      cases hd : dropLastWhile isSpace (trimStart t) with
      | nil => rw [hd] at hc'; simp at hc'
      | cons a d => rw [hd] at hc'; simpa using hc'
    rw [trimStart_eq] at h4
    have := dropWhile_head isSpace t c h4
    rw [this] at hb'
    cases hb'
  · intro c hc hb
    have := h3 c hc
    rw [(blank_iff c).2 hb] at this
    cases this

/-- C54: a block of header fields, some folded over several lines, is read as one header per field: the name,
and everything written behind the colon with the line breaks taken out and without the blanks around it. A
folded field is flagged as such; a field on one line with nothing but spaces and tabs behind its colon is flagged as empty;
no other flag is set. The end of the headers is reported and exactly the data behind the block is left. On the
response side this needs that no continuation line begins like a field of its own
(`C54_response_splits_fold`), and that the data behind the block does not begin with a space, a tab or a CR
(`C21_response_swallows`). -/
theorem C54_folded_fields (p : HeaderParser) (fs : List Field) (hne : fs ≠ []) (hw : ∀ f ∈ fs, f.WellFormed)
    (hk : p.side = .response → ∀ f ∈ fs, ∀ x ∈ f.folds, ¬LooksLikeField x.2) (trailing : Bytes)
    (ht : p.side = .response → ∀ c ∈ trailing.head?, c ≠ 32 ∧ c ≠ 9 ∧ c ≠ 13) :
    ∃ hs : List ParsedHeader, p.headers (renderFields fs ++ trailing) = .ok trailing (hs, true) ∧
      List.Forall₂ (fun (f : Field) (h : ParsedHeader) =>
        h.name.text = f.name ∧ h.name.flags = 0 ∧ Stripped f.text h.value.text ∧
        h.value.flags = if f.folds ≠ [] then HFlag.FOLDING
          else if ∀ c ∈ f.first, c = 32 ∨ c = 9 then HFlag.VALUE_EMPTY else 0) fs hs := by
  have hpl : PlainAfter p trailing := fun hs =>
    ⟨fun c hc => ⟨(ht hs c hc).1, (ht hs c hc).2.1⟩, fun c hc e => absurd e (ht hs c hc).2.2⟩
  refine ⟨fs.map foldedHeader, ?_, ?_⟩
  · have h1 := headersLoop_fields p trailing hpl fs hne hw hk [] ((renderFields fs ++ trailing).length + 1) (by omega)
    rw [headers_eq_loop, h1]
    · rfl
    · cases fs with
      | nil => exact absurd rfl hne
      | cons x fs =>
        obtain ⟨c, r, hcr, c1, c2, c3, c4, c5⟩ := renderFields_head fs (fun y hy => hw y (by simp [hy])) trailing
        have hh := header_field p x (hw x (by simp)) (fun hs => hk hs x (by simp)) c r
          (fun _ => ⟨by simp [c1, c2], by simpa using c4⟩) ⟨c1, c2, c3⟩
        rw [renderFields, List.append_assoc, hcr, hh]
        intro e
        cases e
  · clear hk hne hw
    induction fs with
    | nil => exact .nil
    | cons f fs ih =>
      refine .cons ⟨rfl, rfl, stripped_trimmed _, ?_⟩ ih
      show (if f.folds ≠ [] then HFlag.FOLDING
        else if f.first.dropWhile nomIsSpace = [] then HFlag.VALUE_EMPTY else 0) = _
      have : f.first.dropWhile nomIsSpace = [] ↔ ∀ c ∈ f.first, c = 32 ∨ c = 9 := by
        generalize f.first = l
        induction l with
        | nil => simp
        | cons a l ih =>
          rw [List.dropWhile_cons]
          by_cases ha : nomIsSpace a = true
          · simp [ha, ih, (blank_sp a).1 ha]
          · have h2 : ¬(a = 32 ∨ a = 9) := fun h => ha ((blank_sp a).2 h)
            simp only [if_neg ha]
            exact ⟨fun h => absurd h (by simp), fun h => absurd (h a (by simp)) h2⟩
      simp only [this]

/-- A folded field between two others, with a body behind the block. -/
example : (⟨b! "X-Y", b! " 1 ", [(32, b! "two"), (9, b! ""), (32, b! " a: 3 ")]⟩ : Field).WellFormed :=
  ⟨by decide, by decide +kernel, by decide +kernel, by decide +kernel, by decide +kernel⟩

example : ({ side := .request } : HeaderParser).headers
      (renderFields [⟨b! "Host", b! " a", []⟩, ⟨b! "X-Y", b! " 1 ", [(32, b! "two"), (9, b! ""), (32, b! " a: 3 ")]⟩,
        ⟨b! "E", b! " ", []⟩] ++ b! " body\r\n") =
    .ok (b! " body\r\n") ([⟨⟨b! "Host", 0⟩, ⟨b! "a", 0⟩⟩, ⟨⟨b! "X-Y", 0⟩, ⟨b! "1  two\t  a: 3", 1⟩⟩,
      ⟨⟨b! "E", 0⟩, ⟨[], 8⟩⟩], true) := by decide +kernel

example : ({ side := .response } : HeaderParser).headers
      (renderFields [⟨b! "Host", b! " a", [(32, b! "x y:")]⟩] ++ b! "body\r\n") =
    .ok (b! "body\r\n") ([⟨⟨b! "Host", 0⟩, ⟨b! "a x y:", 1⟩⟩], true) := by decide +kernel

/-- The condition is needed: on the response side a continuation line that begins like a field becomes a
header of its own, and nothing marks it. -/
theorem C54_response_splits_fold :
    ({ side := .response } : HeaderParser).headers
      (renderFields [⟨b! "X-Y", b! " 1", [(32, b! "Set-Cookie: 2")]⟩]) =
    .ok [] ([⟨⟨b! "X-Y", 0⟩, ⟨b! "1", 0⟩⟩, ⟨⟨b! "Set-Cookie", 0⟩, ⟨b! "2", 0⟩⟩], true) := by decide +kernel

end Props

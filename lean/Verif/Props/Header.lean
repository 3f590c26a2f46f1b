/-
C21, C23: the header parser recovers well-formed blocks and returns a suffix of its input.
-/
import Verif.Spec.HeaderBlock
import Verif.Lemmas.HeaderSuffix

namespace Props
open Model Spec Nom

/-! ### C23 -/

/-- The unparsed rest is a proper suffix of the input: nothing is invented, and progress is made. -/
theorem C23_headers_suffix (p : HeaderParser) (i rest : Bytes) (r : List ParsedHeader × Bool)
    (h : p.headers i = .ok rest r) : ∃ eaten, eaten ≠ [] ∧ i = eaten ++ rest := by
  obtain ⟨⟨e, he⟩, h2⟩ := p.eats_headers i rest r h
  refine ⟨e, ?_, he.symm⟩
  rintro rfl
  simp only [List.nil_append] at he
  subst he
  omega

/-- The same for a single header. -/
theorem C23_header_suffix (p : HeaderParser) (i rest : Bytes) (r : ParsedHeader)
    (h : p.header i = .ok rest r) : ∃ eaten, eaten ≠ [] ∧ i = eaten ++ rest := by
  obtain ⟨⟨e, he⟩, h2⟩ := p.eats_header i rest r h
  refine ⟨e, ?_, he.symm⟩
  rintro rfl
  simp only [List.nil_append] at he
  subst he
  omega

example : ∃ r, ({ side := .request } : HeaderParser).headers (b! "a: b\r\nc: d") = .ok (b! "c: d") r :=
  ⟨([{ name := ⟨b! "a", 0⟩, value := ⟨b! "b", 0⟩ }], false), by decide +kernel⟩

/-! ### C21 -/

theorem tchar_facts : ∀ c : UInt8, Tchar c →
    isToken c = true ∧ nomIsSpace c = false ∧ isSpace c = false ∧ c ≠ 58 ∧ c ≠ 10 ∧ c ≠ 13 ∧ c ≠ 0 := by
  decide +kernel

theorem blank_iff : ∀ c : UInt8, isSpace c = true ↔ Blank c := by decide +kernel

theorem nameScan_token (n r : Bytes) (h : ∀ c ∈ n, c ≠ 58 ∧ c ≠ 10) (k : Nat) :
    HeaderParser.nameScan false k (n ++ 58 :: r) = k + n.length := by
  induction n generalizing k with
  | nil => simp [HeaderParser.nameScan]
  | cons c n ih =>
    have h1 := h c (by simp)
    simp only [List.cons_append, HeaderParser.nameScan, Bool.not_false, if_true, h1.1, h1.2, if_false]
    rw [ih (fun d hd => h d (by simp [hd]))]
    simp; omega

theorem trimmed_id {v : Bytes} (h1 : ∀ c ∈ v.head?, isSpace c = false)
    (h2 : ∀ c ∈ v.getLast?, isSpace c = false) : trimmed v = v := by
  rw [trimmed, trimStart_eq, (takeWhile_eq_nil_of_head h1).2, trimEnd, dropLastWhile_of_last h2]

theorem trimmed_after {v w : Bytes} (h1 : ∀ c ∈ v.head?, isSpace c = false)
    (h2 : ∀ c ∈ v.getLast?, isSpace c = false) (hw : ∀ c ∈ w, isSpace c = true) (hv : v = [] → w = []) :
    trimmed (v ++ w) = v := by
  rw [trimmed, trimStart_eq, (takeWhile_eq_nil_of_head (l := v ++ w) ?_).2, trimEnd, dropLastWhile_append h2 hw]
  intro c hc
  cases v with
  | nil => simp [hv rfl] at hc
  | cons a v => simp only [List.cons_append, List.head?_cons] at hc; exact h1 c (by simpa using hc)

theorem nameFlags_token {n : Bytes} (hne : n ≠ []) (h : ∀ c ∈ n, Tchar c) : HeaderParser.nameFlags n = 0 := by
  cases n with
  | nil => simp at hne
  | cons c cs =>
    have hc := tchar_facts c (h c (by simp))
    have hl : ((c :: cs).getLast?.any nomIsSpace) = false := by
      rw [List.getLast?_eq_some_getLast hne]
      exact (tchar_facts _ (h _ (List.getLast_mem hne))).2.1
    have ht : tokenChars (c :: cs) = .incomplete := by
      have h1 : space0 (c :: cs) = .ok (c :: cs) [] := by
        have := takeWhile_eq_nil_of_head (p := nomIsSpace) (l := c :: cs) (by simp [hc.2.1])
        simp [space0, takeWhileS, this.1, this.2]
      have h2 : takeWhileS isToken (c :: cs) = .incomplete := by
        have := span_of_append (p := isToken) (a := c :: cs) (b := [])
          (fun d hd => (tchar_facts d (h d hd)).1) (by simp)
        rw [List.append_nil] at this
        simp [takeWhileS, this.2]
      simp [tokenChars, Nom.bind, h1, h2]
    simp only [HeaderParser.nameFlags, hc.2.1, hl, ht]
    simp

/-- A CR LF before `r` is read as an ordinary end of line. -/
def PlainAfter (p : HeaderParser) (r : Bytes) : Prop :=
  p.side = .response → (∀ c ∈ r.head?, c ≠ 32 ∧ c ≠ 9) ∧ (∀ c ∈ r.head?, c = 13 → r.tail.head? = some 10)

theorem tag_cons_ne {t : Bytes} {a b : UInt8} {r : Bytes} (h : a ≠ b) : tag (b :: t) (a :: r) = .err := by
  rw [tag_err_iff]
  rintro ⟨x, hx⟩
  simp only [List.cons_append, List.cons.injEq] at hx
  exact h hx.1.symm

theorem eolDeformed1_cr (r : Bytes) : HeaderParser.eolDeformed1 (13 :: r) = .err := by
  simp [HeaderParser.eolDeformed1, Nom.bind, tag_cons_ne]

theorem eolDeformed2_cr (r : Bytes) : HeaderParser.eolDeformed2 (13 :: r) = .err := by
  simp [HeaderParser.eolDeformed2, Nom.bind, tag_cons_ne]

theorem regular_crlf (p : HeaderParser) (r : Bytes) : p.completeEolRegular (13 :: 10 :: r) = .ok r [13, 10] := by
  have : tag [13, 10] (13 :: 10 :: r) = .ok r [13, 10] := tag_append [13, 10] r
  unfold HeaderParser.completeEolRegular
  cases p.side <;> simp [alt, this]

theorem completeEol_crlf (p : HeaderParser) (r : Bytes) (h : PlainAfter p r) :
    p.completeEol (13 :: 10 :: r) = .ok r ([13, 10], 0) := by
  have hd : p.completeEolDeformed (13 :: 10 :: r) = .err := by
    unfold HeaderParser.completeEolDeformed
    cases hs : p.side with
    | response =>
      obtain ⟨h1, h2⟩ := h hs
      have hf : p.foldingEmpty (13 :: 10 :: r) = .err := by
        simp only [HeaderParser.foldingEmpty, Nom.bind, regular_crlf]
        cases r with
        | nil => simp [oneOf]
        | cons c cs =>
          have := h1 c (by simp)
          simp [oneOf, this.1, this.2]
      have h3 : HeaderParser.eolDeformed3 (13 :: 10 :: r) = .err := by
        cases r with
        | nil =>
          have : tag [13, 10, 13] [13, 10] = .err := by decide
          simp [HeaderParser.eolDeformed3, Nom.bind, this]
        | cons c cs =>
          by_cases hc : c = 13
          · subst hc
            have h4 := h2 13 (by simp) rfl
            simp only [List.tail_cons] at h4
            obtain ⟨d, rfl⟩ : ∃ d, cs = 10 :: d := by
              cases cs with
              | nil => simp at h4
              | cons a d => simp only [List.head?_cons, Option.some.injEq] at h4; exact ⟨d, by rw [h4]⟩
            have : tag [13, 10, 13] (13 :: 10 :: 13 :: 10 :: d) = .ok (10 :: d) [13, 10, 13] :=
              tag_append [13, 10, 13] _
            simp [HeaderParser.eolDeformed3, Nom.bind, this, takeWhile1S]
          · have : tag [13, 10, 13] (13 :: 10 :: c :: cs) = .err := by
              rw [tag_err_iff]
              rintro ⟨x, hx⟩
              simp only [List.cons_append, List.nil_append, List.cons.injEq] at hx
              exact hc hx.2.2.1.symm
            simp [HeaderParser.eolDeformed3, Nom.bind, this]
      simp [alt, eolDeformed1_cr, hf, h3]
    | request => simp [alt, eolDeformed1_cr, eolDeformed2_cr]
  simp [HeaderParser.completeEol, alt, hd, Nom.map, regular_crlf]

theorem foldingLws_err {c : UInt8} (r : Bytes) (h : c ≠ 32 ∧ c ≠ 9 ∧ c ≠ 0) : foldingLws (c :: r) = .err := by
  have : ∀ t : UInt8, c ≠ t → tagS [t] (c :: r) = .err := by
    intro t ht; simp [tagS, agrees, ht]
  simp [foldingLws, Nom.map, alt, this 32 h.1, this 9 h.2.1, this 0 h.2.2]

theorem terminator_crlf (p : HeaderParser) (c : UInt8) (r : Bytes) (h : PlainAfter p (c :: r))
    (hc : c ≠ 32 ∧ c ≠ 9 ∧ c ≠ 0) :
    p.foldingOrTerminator (13 :: 10 :: c :: r) = .ok (c :: r) (([13, 10], 0), none) := by
  have h1 := completeEol_crlf p (c :: r) h
  have h2 : p.folding (13 :: 10 :: c :: r) = .err := by
    unfold HeaderParser.folding
    cases p.side
    · simp [Nom.bind, h1, Nom.map, foldingLws_err r hc]
    · simp [Nom.bind, regular_crlf, Nom.map, foldingLws_err r hc]
  have h3 : hpNull (13 :: 10 :: c :: r) = .err := by simp [hpNull, Nom.map, tag_cons_ne]
  unfold HeaderParser.foldingOrTerminator
  cases p.complete
  rotate_left
  · simp [HeaderParser.completeFoldingOrTerminator, alt, complete, h2, Nom.map,
      HeaderParser.completeNullOrEol, h3, h1]
  · simp [HeaderParser.streamingFoldingOrTerminator, alt, h2, Nom.map,
      HeaderParser.nullOrEol, h3, HeaderParser.eol, Nom.bind, h1, Nom.not, foldingLws_err r hc]

theorem valueBytes_line (p : HeaderParser) (v : Bytes) (c : UInt8) (r : Bytes)
    (hv : ∀ d ∈ v, d ≠ 13 ∧ d ≠ 10) (h : PlainAfter p (c :: r)) (hc : c ≠ 32 ∧ c ≠ 9 ∧ c ≠ 0) :
    p.valueBytes (v ++ 13 :: 10 :: c :: r) = .ok (c :: r) (v, ([13, 10], 0), none) := by
  have ht := terminator_crlf p c r h hc
  unfold HeaderParser.valueBytes takeTillS
  cases hs : p.side with
  | request =>
    have h1 := span_of_append (p := fun c => !p.isEol c) (a := v ++ [13]) (b := 10 :: c :: r)
      (by
        intro d hd
        simp only [List.mem_append, List.mem_singleton] at hd
        have : d ≠ 10 := by
          rcases hd with hd | hd
          · exact (hv d hd).2
          · subst hd; decide
        simp [HeaderParser.isEol, hs, this])
      (by simp [HeaderParser.isEol])
    simp only [List.append_assoc, List.cons_append, List.nil_append] at h1
    simp [takeWhileS, h1.1, h1.2, Nom.map, ht]
  | response =>
    have h1 := span_of_append (p := fun c => !p.isEol c) (a := v) (b := 13 :: 10 :: c :: r)
      (by
        intro d hd
        have := hv d hd
        simp [HeaderParser.isEol, hs, this.1, this.2])
      (by simp [HeaderParser.isEol, hs])
    have h2 : v.getLast? ≠ some 13 := by
      intro he
      exact (hv 13 (List.mem_of_getLast? he)).1 rfl
    simp [takeWhileS, h1.1, h1.2, Nom.map, ht, h2]

/-- What the parser reports for a well-formed line: name and value without flags (an empty value is marked). -/
def recovered (h : HeaderLine) : ParsedHeader :=
  { name := { text := h.name, flags := 0 },
    value := { text := h.value, flags := if h.value = [] then HFlag.VALUE_EMPTY else 0 } }

theorem header_line (p : HeaderParser) (h : HeaderLine) (wf : h.WellFormed) (c : UInt8) (r : Bytes)
    (hp : PlainAfter p (c :: r)) (hc : c ≠ 32 ∧ c ≠ 9 ∧ c ≠ 0) :
    p.header (h.render ++ c :: r) = .ok (c :: r) (recovered h) := by
  obtain ⟨name, before, value, after⟩ := h
  have hn : ∀ d ∈ name, d ≠ 58 ∧ d ≠ 10 := fun d hd =>
    ⟨(tchar_facts d (wf.token d hd)).2.2.2.1, (tchar_facts d (wf.token d hd)).2.2.2.2.1⟩
  have hfirst : ∀ c ∈ value.head?, isSpace c = false := by
    intro c hc; have := wf.first c hc; rw [← blank_iff] at this; simpa using this
  have hlast : ∀ c ∈ value.getLast?, isSpace c = false := by
    intro c hc; have := wf.last c hc; rw [← blank_iff] at this; simpa using this
  have hsp : ∀ c : UInt8, c = 32 ∨ c = 9 → nomIsSpace c = true ∧ isSpace c = true := by decide +kernel
  -- the part after the blanks before the value
  obtain ⟨w, hw1, hw2, hw3⟩ : ∃ w, value ++ after = (if value = [] then after else []) ++ w ∧
      (value = [] → w = []) ∧ (value ≠ [] → w = value ++ after) := by
    by_cases hv : value = []
    · exact ⟨[], by simp [hv], by simp, by simp [hv]⟩
    · exact ⟨value ++ after, by simp [hv], by simp [hv], by simp⟩
  have hwb : ∀ d ∈ w, d ≠ 13 ∧ d ≠ 10 := by
    intro d hd
    by_cases hv : value = []
    · simp [hw2 hv] at hd
    · rw [hw3 hv, List.mem_append] at hd
      rcases hd with hd | hd
      · exact wf.no_break d hd
      · rcases wf.after_blank d hd with e | e <;> subst e <;> decide
  have htrim : trimmed w = value := by
    by_cases hv : value = []
    · rw [hw2 hv, hv]; rfl
    · rw [hw3 hv]
      exact trimmed_after hfirst hlast (fun d hd => (hsp d (wf.after_blank d hd)).2) (fun e => absurd e hv)
  have hwe : (w = []) ↔ (value = []) := by
    constructor
    · intro e; by_cases hv : value = []
      · exact hv
      · rw [hw3 hv] at e; simp [hv] at e
    · exact hw2
  have hname : HeaderParser.name (name ++ 58 :: (before ++ value ++ after ++ [13, 10]) ++ c :: r) =
      .ok (58 :: (before ++ value ++ after ++ [13, 10]) ++ c :: r) { text := name, flags := 0 } := by
    have hns := nameScan_token name (before ++ value ++ after ++ [13, 10] ++ c :: r) hn 0
    simp only [List.append_assoc, List.cons_append, Nat.zero_add] at hns ⊢
    simp only [HeaderParser.name, hns, List.drop_left, List.take_left]
    rw [FlaggedText.new, nameFlags_token wf.nonempty wf.token, trimmed_id]
    · intro d hd; exact (tchar_facts d (wf.token d (List.mem_of_head? hd))).2.2.1
    · intro d hd; exact (tchar_facts d (wf.token d (List.mem_of_getLast? hd))).2.2.1
  have hsep : HeaderParser.separator (58 :: (before ++ value ++ after ++ [13, 10]) ++ c :: r) =
      .ok (w ++ 13 :: 10 :: c :: r) 0 := by
    have h1 := tag_append [58] (before ++ value ++ after ++ [13, 10] ++ c :: r)
    have h2 := span_of_append (p := nomIsSpace) (a := before ++ if value = [] then after else [])
      (b := w ++ 13 :: 10 :: c :: r)
      (by
        intro d hd
        rw [List.mem_append] at hd
        rcases hd with hd | hd
        · exact (hsp d (wf.before_blank d hd)).1
        · split at hd
          · exact (hsp d (wf.after_blank d hd)).1
          · simp at hd)
      (by
        intro d hd
        by_cases hv : value = []
        · simp only [hw2 hv, List.nil_append, List.head?_cons, Option.mem_def, Option.some.injEq] at hd
          subst hd; decide
        · rw [hw3 hv] at hd
          cases value with
          | nil => simp at hv
          | cons a v =>
            simp only [List.cons_append, List.head?_cons, Option.mem_def, Option.some.injEq] at hd
            have := hfirst a (by simp)
            subst hd
            have : ∀ x : UInt8, isSpace x = false → nomIsSpace x = false := by decide +kernel
            exact this _ (by assumption))
    have h3 : before ++ value ++ after ++ [13, 10] ++ c :: r =
        (before ++ if value = [] then after else []) ++ (w ++ 13 :: 10 :: c :: r) := by
      rw [List.append_assoc before, hw1]; simp
    simp only [List.cons_append, List.nil_append] at h1 ⊢
    rw [h3] at h1 ⊢
    simp only [HeaderParser.separator, separatorRegular, pair, Nom.map, Nom.bind, h1, space0, takeWhileS, h2.1, h2.2]
    simp
  have hval : p.value (w ++ 13 :: 10 :: c :: r) =
      .ok (c :: r) { text := value, flags := if value = [] then HFlag.VALUE_EMPTY else 0 } := by
    simp only [HeaderParser.value, valueBytes_line p w c r hwb hp hc, FlaggedText.new, htrim, hwe]
    congr
  have hcolon : p.headerWithColon (name ++ 58 :: (before ++ value ++ after ++ [13, 10]) ++ c :: r) =
      .ok (c :: r) (recovered ⟨name, before, value, after⟩) := by
    simp only [HeaderParser.headerWithColon, Nom.bind, hname, hsep, Nom.map, hval, recovered]
    simp
  simp only [HeaderLine.render, HeaderParser.header, alt, complete, hcolon]

theorem renderBlock_head (hs : List HeaderLine) (h : ∀ x ∈ hs, x.WellFormed) (t : Bytes) :
    ∃ c r, renderBlock hs ++ t = c :: r ∧ c ≠ 32 ∧ c ≠ 9 ∧ c ≠ 0 ∧ (c = 13 → r.head? = some 10) := by
  cases hs with
  | nil => exact ⟨13, 10 :: t, by simp [renderBlock], by decide, by decide, by decide, by simp⟩
  | cons x hs =>
    obtain ⟨name, before, value, after⟩ := x
    have wf := h ⟨name, before, value, after⟩ (by simp)
    cases name with
    | nil => exact absurd rfl wf.nonempty
    | cons c cs =>
      have hc := tchar_facts c (wf.token c (by simp))
      refine ⟨c, _, rfl, ?_, ?_, hc.2.2.2.2.2.2, fun e => absurd e hc.2.2.2.2.2.1⟩
      · rintro rfl; exact absurd hc.2.1 (by decide)
      · rintro rfl; exact absurd hc.2.1 (by decide)

theorem afterHeader_none (p : HeaderParser) (h : HeaderLine) {c : UInt8} (r : Bytes) (hc : c ≠ 13 ∧ c ≠ 10) :
    p.afterHeader (c :: r) (recovered h) = none := by
  have h1 : isSet (recovered h).value.flags HFlag.NULL_TERMINATED = false := by
    simp only [recovered]; split <;> decide
  have h2 : p.completeEol (c :: r) = .err := by
    have a1 : ∀ t, tag (13 :: t) (c :: r) = .err := fun t => tag_cons_ne hc.1
    have a2 : ∀ t, tag (10 :: t) (c :: r) = .err := fun t => tag_cons_ne hc.2
    have a3 : p.completeEolRegular (c :: r) = .err := by
      unfold HeaderParser.completeEolRegular; cases p.side <;> simp [alt, a1, a2]
    unfold HeaderParser.completeEol HeaderParser.completeEolDeformed
    cases p.side <;> simp [alt, HeaderParser.eolDeformed1, HeaderParser.eolDeformed2, HeaderParser.eolDeformed3,
      HeaderParser.foldingEmpty, Nom.bind, Nom.map, a1, a2, a3]
  simp [HeaderParser.afterHeader, h1, h2]

theorem afterHeader_end (p : HeaderParser) (h : HeaderLine) (t : Bytes) (ht : PlainAfter p t) :
    p.afterHeader (13 :: 10 :: t) (recovered h) = some t := by
  have h1 : isSet (recovered h).value.flags HFlag.NULL_TERMINATED = false := by
    simp only [recovered]; split <;> decide
  simp [HeaderParser.afterHeader, h1, completeEol_crlf p t ht]

theorem headersLoop_block (p : HeaderParser) (t : Bytes) (ht : PlainAfter p t) :
    ∀ (hs : List HeaderLine), hs ≠ [] → (∀ x ∈ hs, x.WellFormed) → ∀ (out : List ParsedHeader) (f : Nat),
      (renderBlock hs ++ t).length < f →
      p.headersLoop f (renderBlock hs ++ t) out = .ok t (out ++ hs.map recovered, true) := by
  intro hs
  induction hs with
  | nil => intro h; simp at h
  | cons x hs ih =>
    intro _ hw out f hf
    obtain ⟨c, r, hcr, c1, c2, c3, c4⟩ := renderBlock_head hs (fun y hy => hw y (by simp [hy])) t
    have hpl : PlainAfter p (c :: r) := fun _ =>
      ⟨by simp [c1, c2], by simpa using c4⟩
    have hh := header_line p x (hw x (by simp)) c r hpl ⟨c1, c2, c3⟩
    cases f with
    | zero => omega
    | succ f =>
      have hlen := (p.eats_header _ _ _ hh).2
      unfold HeaderParser.headersLoop
      simp only [renderBlock, List.append_assoc] at hf ⊢
      rw [hcr] at hf ⊢
      simp only [hh]
      cases hs with
      | nil =>
        simp only [renderBlock, List.cons_append, List.nil_append, List.cons.injEq] at hcr
        rw [← hcr.1, ← hcr.2, afterHeader_end p x t ht]
        simp
      | cons y hs =>
        have hy := hw y (by simp)
        have hc : c ≠ 13 ∧ c ≠ 10 := by
          cases hyn : y.name with
          | nil => exact absurd hyn hy.nonempty
          | cons d ds =>
            simp only [renderBlock, HeaderLine.render, hyn, List.cons_append, List.cons.injEq] at hcr
            have := tchar_facts d (hy.token d (by simp [hyn]))
            rw [← hcr.1]
            exact ⟨this.2.2.2.2.2.1, this.2.2.2.2.1⟩
        rw [afterHeader_none p x r hc, ← hcr]
        simp only
        rw [ih (by simp) (fun z hz => hw z (by simp [hz])) _ _ (by rw [hcr]; omega)]
        simp

theorem headers_eq_loop (p : HeaderParser) (i : Bytes) (h : p.header i ≠ .incomplete) :
    p.headers i = p.headersLoop (i.length + 1) i [] := by
  unfold HeaderParser.headers
  rw [HeaderParser.headersLoop]
  cases hh : p.header i with
  | err => rfl
  | incomplete => exact absurd hh h
  | ok rest head =>
    have := (p.eats_header _ _ _ hh).2
    cases ha : p.afterHeader rest head with
    | some r => simp [ha]
    | none =>
      simp only [ha, List.nil_append]
      exact p.headersLoop_fuel _ _ _ _ (by omega) (by omega)

/-- A block of well-formed header lines (at least one) is recovered exactly, on either side and whether or
not the stream is known to be complete: the same names and values in the same order, no flag except the mark
on an empty value, end of headers reported, and exactly the data after the block left over. On the response
side the data after the block must not begin with a space, a tab or a CR (see `C21_response_swallows`). -/
theorem C21_block_recovered (p : HeaderParser) (hs : List HeaderLine) (hne : hs ≠ [])
    (hw : ∀ h ∈ hs, h.WellFormed) (trailing : Bytes)
    (ht : p.side = .response → ∀ c ∈ trailing.head?, c ≠ 32 ∧ c ≠ 9 ∧ c ≠ 13) :
    p.headers (renderBlock hs ++ trailing) =
      .ok trailing (hs.map fun h =>
        { name := { text := h.name, flags := 0 },
          value := { text := h.value, flags := if h.value = [] then HFlag.VALUE_EMPTY else 0 } }, true) := by
  have hpl : PlainAfter p trailing := fun hs =>
    ⟨fun c hc => ⟨(ht hs c hc).1, (ht hs c hc).2.1⟩, fun c hc e => absurd e (ht hs c hc).2.2⟩
  have h1 := headersLoop_block p trailing hpl hs hne hw [] ((renderBlock hs ++ trailing).length + 1) (by omega)
  rw [headers_eq_loop, h1]
  · rfl
  · cases hs with
    | nil => exact absurd rfl hne
    | cons x hs =>
      obtain ⟨c, r, hcr, c1, c2, c3, c4⟩ := renderBlock_head hs (fun y hy => hw y (by simp [hy])) trailing
      have hh := header_line p x (hw x (by simp)) c r (fun _ => ⟨by simp [c1, c2], by simpa using c4⟩) ⟨c1, c2, c3⟩
      rw [renderBlock, List.append_assoc, hcr, hh]
      simp

/-- A block with repeated blanks, an empty value and a value containing separators, with a body behind it. -/
example : ({ side := .request } : HeaderParser).headers
      (renderBlock [⟨b! "Host", b! " ", b! "a", []⟩, ⟨b! "X-Y", [], b! "1 :2", b! "\t"⟩, ⟨b! "E", b! " ", [], []⟩] ++
        b! " body\r\n") =
    .ok (b! " body\r\n") ([⟨⟨b! "Host", 0⟩, ⟨b! "a", 0⟩⟩, ⟨⟨b! "X-Y", 0⟩, ⟨b! "1 :2", 0⟩⟩, ⟨⟨b! "E", 0⟩, ⟨[], 8⟩⟩],
      true) := by decide +kernel

example : (⟨b! "X-Y", [], b! "1 :2", b! "\t"⟩ : HeaderLine).WellFormed :=
  ⟨by decide, by decide +kernel, by decide +kernel, by decide +kernel, by decide +kernel, by simp, by decide +kernel⟩

/-- The condition on the response side is needed: when the body begins with a blank line made of a space,
the parser takes those body bytes as part of the empty line that ends the headers. -/
theorem C21_response_swallows :
    ({ side := .response } : HeaderParser).headers (renderBlock [⟨b! "A", b! " ", b! "b", []⟩] ++ b! " \r\nbody") =
      .ok (b! "body") ([⟨⟨b! "A", 0⟩, ⟨b! "b", 0⟩⟩], true) := by decide +kernel

/-- The same with carriage returns: a body beginning with CR CR loses them. -/
theorem C21_response_swallows_cr :
    ({ side := .response } : HeaderParser).headers (renderBlock [⟨b! "A", b! " ", b! "b", []⟩] ++ b! "\r\r\nbody") =
      .ok (b! "body") ([⟨⟨b! "A", 0⟩, ⟨b! "b", 0⟩⟩], true) := by decide +kernel

end Props

/-
The header block of a response of which only the beginning is there.
-/
import Verif.Lemmas.SegBlock
import Verif.Lemmas.RespRounds

namespace Model.Ans

open M Spec Props

/-- The header parser of a response. -/
def resP : HeaderParser := { side := .response }

/-- What a call can end with, in a line end or just after it. -/
def ends : List Bytes := [[], [13], [13, 10], [13, 10, 13], [10], [10, 13]]

/-- A line, perhaps without its beginning, that may go on. -/
def Open (i : Bytes) : Prop := ∃ z e, i = z ++ e ∧ (∀ c ∈ z, c ≠ 13 ∧ c ≠ 10) ∧ e ∈ ends

theorem Open.suffix {i : Bytes} (h : Open i) {w y : Bytes} (hy : i = w ++ y) : Open y := by
  obtain ⟨z, e, rfl, hz, he⟩ := h
  rcases List.append_eq_append_iff.mp hy with ⟨a, h1, h2⟩ | ⟨a, h1, h2⟩
  · refine ⟨[], y, rfl, by simp, ?_⟩
    have : ∀ e ∈ ends, ∀ n, n ≤ e.length → e.drop n ∈ ends := by decide
    have h3 := this e he a.length (by rw [h2]; simp)
    rwa [h2, List.drop_left] at h3
  · exact ⟨a, e, h2, fun c hc => hz c (by rw [h1]; simp [hc]), he⟩

theorem open_value {i : Bytes} (h : Open i) : resP.value i = .incomplete := by
  obtain ⟨z, e, rfl, hz, he⟩ := h
  have hp : ∀ c ∈ z, (fun c : UInt8 => !resP.isEol c) c = true := by
    intro c hc
    have := hz c hc
    simp [HeaderParser.isEol, resP, this.1, this.2]
  have h1 : resP.valueBytes (z ++ e) = .incomplete := by
    unfold HeaderParser.valueBytes Nom.takeTillS Nom.takeWhileS
    rw [List.dropWhile_append_of_pos hp, List.takeWhile_append_of_pos hp]
    have hlast : z.getLast? ≠ some 13 := fun h => (hz 13 (List.mem_of_getLast? h)).1 rfl
    simp only [ends, List.mem_cons, List.not_mem_nil, or_false] at he
    have hf : ∀ e ∈ ends, e ≠ [] → resP.foldingOrTerminator e = .incomplete := by decide +kernel
    have ht : ∀ e ∈ ends, e ≠ [] → e.dropWhile (fun c : UInt8 => !resP.isEol c) = e ∧
      e.takeWhile (fun c : UInt8 => !resP.isEol c) = [] := by decide +kernel
    by_cases h0 : e = []
    · subst h0; rfl
    · have he' : e ∈ ends := by simpa [ends] using he
      rw [(ht e he' h0).1, (ht e he' h0).2, List.append_nil]
      cases hc : e with
      | nil => exact absurd hc h0
      | cons c cs =>
        rw [if_neg (by simp)]
        dsimp only
        rw [if_neg hlast, ← hc]
        unfold Nom.map
        rw [hf e he' h0]
  unfold HeaderParser.value
  rw [h1]

theorem open_header {i : Bytes} (h : Open i) (h2 : ¬ [13, 10] <+: i) : resP.header i = .incomplete := by
  have h1 : resP.headerWithColon i = .err ∨ resP.headerWithColon i = .incomplete := by
    unfold HeaderParser.headerWithColon
    unfold Nom.bind HeaderParser.name
    dsimp only
    generalize hn : HeaderParser.nameScan false 0 i = n
    cases hs : HeaderParser.separator (i.drop n) with
    | err => exact .inl rfl
    | incomplete => exact .inr rfl
    | ok r fl =>
      dsimp only
      right
      have h3 : Open r := by
        obtain ⟨-, -, s, hs2, hs3⟩ := separator_ok_iff.mp hs
        obtain ⟨w, hw⟩ := List.dropWhile_suffix (l := s) nomIsSpace
        refine Open.suffix h (w := i.take n ++ (58 :: w)) ?_
        have h4 := List.take_append_drop n i
        rw [hs2, ← hw, ← hs3] at h4
        rw [List.append_assoc, List.cons_append]
        exact h4.symm
      unfold Nom.map
      rw [open_value h3]
  have h3 : resP.headerSansColon i = .incomplete := by
    unfold HeaderParser.headerSansColon Nom.bind Nom.not
    have : Nom.tag [13, 10] i = .err := by
      cases ht : Nom.tag [13, 10] i with
      | err => rfl
      | incomplete => exact absurd ht (tag_ne_incomplete _ _)
      | ok r v =>
        obtain ⟨h4, -⟩ := (tag_ok_iff _ _ _ _).mp ht
        exact absurd ⟨r, h4.symm⟩ h2
    rw [this]
    unfold Nom.map
    dsimp only
    rw [open_value h]
  unfold HeaderParser.header Nom.alt Nom.complete
  rcases h1 with h1 | h1 <;> rw [h1] <;> exact h3

/-- The beginning of a line, even all of it and the CR of the empty line: there may be more. -/
theorem header_prefix (h : HeaderLine) (hw : h.WellFormed) {i more : Bytes} (hi : i ++ more = h.render ++ [13]) :
    resP.header i = .incomplete := by
  have hx : ∀ c ∈ h.name ++ 58 :: (h.before ++ h.value ++ h.after), c ≠ 13 ∧ c ≠ 10 := by
    have h1 : ∀ c : UInt8, Tchar c → c ≠ 13 ∧ c ≠ 10 := by decide +kernel
    intro c hc
    simp only [List.mem_append, List.mem_cons] at hc
    rcases hc with hc | rfl | (hc | hc) | hc
    · exact h1 c (hw.token c hc)
    · decide
    · rcases hw.before_blank c hc with rfl | rfl <;> decide
    · exact hw.no_break c hc
    · rcases hw.after_blank c hc with rfl | rfl <;> decide
  have hr : h.render ++ [13] = (h.name ++ 58 :: (h.before ++ h.value ++ h.after)) ++ [13, 10, 13] := by
    simp [HeaderLine.render]
  refine open_header ?_ ?_
  · rw [hr] at hi
    generalize h.name ++ 58 :: (h.before ++ h.value ++ h.after) = x at hi hx
    rcases List.append_eq_append_iff.mp hi with ⟨a, h1, h2⟩ | ⟨a, h1, h2⟩
    · exact ⟨i, [], by simp, fun c hc => hx c (by rw [h1]; simp [hc]), by decide⟩
    · refine ⟨x, a, h1, hx, ?_⟩
      have : ∀ n, n ≤ 3 → [13, 10, 13].take n ∈ ends := by decide
      have h3 := this a.length (by
        have := congrArg List.length h2
        simp at this
        omega)
      rwa [h2, List.take_left] at h3
  · rintro ⟨y, rfl⟩
    cases hn : h.name with
    | nil => exact hw.nonempty hn
    | cons c cs =>
      have h3 := hw.token c (by rw [hn]; simp)
      simp only [HeaderLine.render, hn, List.cons_append, List.cons.injEq] at hi
      rw [← hi.1] at h3
      exact absurd h3 (by decide)

theorem header_empty {i more : Bytes} (hi : i ++ more = [13, 10]) (hm : more ≠ []) : resP.header i = .incomplete := by
  have h1 : i = [] ∨ i = [13] := by
    cases i with
    | nil => exact .inl rfl
    | cons c i =>
      cases i with
      | nil => simp at hi; exact .inr (by rw [hi.1])
      | cons d i =>
        simp at hi
        exact absurd hi.2.2.2 hm
  rcases h1 with rfl | rfl <;> decide +kernel

theorem block_head {hs : List HeaderLine} (hw : ∀ h ∈ hs, h.WellFormed) (hne : hs ≠ []) {c : UInt8} {x : Bytes}
    (h : renderBlock hs = c :: x) : Tchar c := by
  rw [renderBlock_lines] at h
  cases hl : linesOf hs with
  | nil =>
    cases hs with
    | nil => exact absurd rfl hne
    | cons a hs => simp [linesOf, HeaderLine.render] at hl
  | cons d y =>
    rw [hl, List.cons_append, List.cons.injEq] at h
    rw [← h.1]
    exact lines_head hw hl

/-- The beginning of a block: the lines of which something else has been seen are recognised. -/
theorem headersLoop_part (ls : List HeaderLine) : ∀ (i more : Bytes) (out : List ParsedHeader) (f : Nat), ls ≠ [] →
    (∀ h ∈ ls, h.WellFormed) → i ++ more = renderBlock ls → more ≠ [] → i.length < f →
    ∃ js ms rest, ls = js ++ ms ∧ ms ≠ [] ∧ resP.headersLoop f i out = .ok rest (out ++ js.map parsedLine, false) ∧
      rest ++ more = renderBlock ms ∧ rest.length ≤ (ms.head?.map fun h => h.render.length + 1).getD 0 := by
  induction ls with
  | nil => intro _ _ _ _ h; exact absurd rfl h
  | cons h ls ih =>
    intro i more out f _ hw hi hm hf
    have hh := hw h (by simp)
    obtain ⟨f, rfl⟩ : ∃ g, f = g + 1 := ⟨f - 1, by omega⟩
    have hi' : i ++ more = h.render ++ renderBlock ls := by rw [hi]; rfl
    have stop : ∀ m', i ++ m' = h.render ++ [13] → ∃ js ms rest, h :: ls = js ++ ms ∧ ms ≠ [] ∧
        resP.headersLoop (f + 1) i out = .ok rest (out ++ js.map parsedLine, false) ∧
        rest ++ more = renderBlock ms ∧ rest.length ≤ (ms.head?.map fun h => h.render.length + 1).getD 0 := by
      intro m' hm'
      refine ⟨[], h :: ls, i, rfl, by simp, ?_, hi, ?_⟩
      · unfold HeaderParser.headersLoop
        rw [header_prefix h hh hm']
        simp
      · have := congrArg List.length hm'
        simp at this ⊢
        omega
    rcases Nat.lt_or_ge h.render.length i.length with hl | hl
    · obtain ⟨c, i', rfl⟩ : ∃ c i', i = h.render ++ c :: i' := by
        have h1 : h.render = i.take h.render.length := by
          have := congrArg (List.take h.render.length) hi'
          rw [List.take_left, List.take_append_of_le_length (by omega)] at this
          exact this.symm
        have h2 := List.take_append_drop h.render.length i
        rw [← h1] at h2
        cases hd : i.drop h.render.length with
        | nil =>
          have := congrArg List.length hd
          rw [List.length_drop] at this
          simp at this
          omega
        | cons c i' => exact ⟨c, i', by rw [← hd, h2]⟩
      rw [List.append_assoc, List.append_cancel_left_eq] at hi'
      by_cases hls : ls = []
      · subst hls
        have h1 : c :: i' ++ more = [13, 10] := hi'
        obtain ⟨rfl, h2⟩ : c = 13 ∧ i' ++ more = [10] := by simpa using h1
        have h3 : i' = [] := by
          cases i' with
          | nil => rfl
          | cons d i' =>
            simp at h2
            exact absurd h2.2.2 hm
        subst h3
        exact stop [] (by simp)
      · have hc := block_head (fun x hx => hw x (List.mem_cons_of_mem _ hx)) hls hi'.symm
        have hc' : ∀ c : UInt8, Tchar c → c ≠ 32 ∧ c ≠ 9 ∧ c ≠ 0 ∧ c ≠ 13 ∧ c ≠ 10 := by decide +kernel
        obtain ⟨c1, c2, c3, c4, c5⟩ := hc' c hc
        have h3 := header_line resP h hh c i' (fun _ => ⟨by simp [c1, c2], by simp [c4]⟩) ⟨c1, c2, c3⟩
        obtain ⟨js, ms, rest, e1, e2, e3, e4, e5⟩ := ih (c :: i') more (out ++ [parsedLine h]) f hls
          (fun x hx => hw x (List.mem_cons_of_mem _ hx)) hi' hm (by
            rw [List.length_append] at hf
            have : h.render.length ≠ 0 := by simp [HeaderLine.render]
            omega)
        refine ⟨h :: js, ms, rest, by rw [e1]; rfl, e2, ?_, e4, e5⟩
        unfold HeaderParser.headersLoop
        rw [h3]
        dsimp only
        rw [afterHeader_none resP h i' ⟨c4, c5⟩]
        dsimp only
        rw [show recovered h = parsedLine h from rfl, e3]
        simp
    · obtain ⟨m', hm'⟩ : ∃ m', i ++ m' = h.render := by
        refine ⟨h.render.drop i.length, ?_⟩
        have := congrArg (List.take i.length) hi'
        rw [List.take_left, List.take_append_of_le_length hl] at this
        conv => lhs; lhs; rw [this]
        exact List.take_append_drop _ _
      exact stop (m' ++ [13]) (by rw [← hm', List.append_assoc])

theorem parseResponseHeaders_part (t : Tx) (hp : t.responseHeaderParser = resP) (ls : List HeaderLine)
    (hw : ∀ h ∈ ls, h.WellFormed) {i more : Bytes} (hi : i ++ more = renderBlock ls) (hm : more ≠ []) :
    ∃ js ms rest, ls = js ++ ms ∧ (ms = [] → ls = []) ∧ t.parseResponseHeaders i = ((rest, false),
      { t with
        responseHeaders := ((fieldsOf js).foldl (fun s h => s.1.store s.2 h) (t.responseHeaders, t.responseHeaderRepetitions)).1
        responseHeaderRepetitions :=
          ((fieldsOf js).foldl (fun s h => s.1.store s.2 h) (t.responseHeaders, t.responseHeaderRepetitions)).2 }) ∧
      rest ++ more = renderBlock ms ∧ rest.length ≤ (ms.head?.map fun h => h.render.length + 1).getD 1 ∧
      rest ≠ [13, 10] ∧ rest ≠ [10] := by
  by_cases hne : ls = []
  · subst hne
    have hi' : i ++ more = [13, 10] := hi
    refine ⟨[], [], i, rfl, fun _ => rfl, ?_, hi, ?_, ?_, ?_⟩
    · unfold Tx.parseResponseHeaders
      rw [show t.responseHeaderParser.headers i = .incomplete from by
        rw [hp]; simp [HeaderParser.headers, header_empty hi' hm]]
      rfl
    · have h5 := congrArg List.length hi'
      have h6 : more.length ≠ 0 := by rw [ne_eq, List.length_eq_zero_iff]; exact hm
      show i.length ≤ 1
      simp at h5
      omega
    · rintro rfl
      simp at hi'
      exact hm hi'
    · rintro rfl
      simp at hi'
  · obtain ⟨js, ms, rest, e1, e2, e3, e4, e5⟩ := headersLoop_part ls i more [] (i.length + 1) hne hw hi hm (by omega)
    have hrest : ∀ c x, rest = c :: x → Tchar c := fun c x h =>
      block_head (fun a ha => hw a (by rw [e1]; simp [ha])) e2 (by rw [← e4, h]; rfl)
    refine ⟨js, ms, rest, e1, fun h => absurd h e2, ?_, e4, ?_, ?_, ?_⟩
    · by_cases h0 : resP.header i = .incomplete
      · have h1 : t.responseHeaderParser.headers i = .incomplete := by rw [hp]; simp [HeaderParser.headers, h0]
        unfold HeaderParser.headersLoop at e3
        rw [h0] at e3
        simp only [List.nil_append, IRes.ok.injEq, Prod.mk.injEq, and_true] at e3
        have hj : js = [] := by cases js with
          | nil => rfl
          | cons => simp at e3
        unfold Tx.parseResponseHeaders
        rw [h1, ← e3.1, hj]
        rfl
      · have h1 : t.responseHeaderParser.headers i = .ok rest (js.map parsedLine, false) := by
          rw [hp, headers_eq_loop _ _ h0, e3, List.nil_append]
        unfold Tx.parseResponseHeaders
        rw [h1]
        dsimp only
        rw [accept_response_lines]
    · cases ms with
      | nil => exact absurd rfl e2
      | cons a ms => exact e5
    · intro h
      exact absurd (hrest _ _ h) (by decide)
    · intro h
      exact absurd (hrest _ _ h) (by decide)

/-- The end of a block: the rest of the fields is stored, and nothing else is consumed. -/
theorem parseResponseHeaders_end (t : Tx) (hs : List HeaderLine) (hw : ∀ h ∈ hs, h.WellFormed) {p x rest : Bytes}
    (hx : p ++ x = renderBlock hs) (hf : AnswerFollows hs rest) :
    ∃ rem eoh, t.parseResponseHeaders (p ++ (x ++ rest)) = ((rem, eoh),
      { t with
        responseHeaders := ((fieldsOf hs).foldl (fun s h => s.1.store s.2 h) (t.responseHeaders, t.responseHeaderRepetitions)).1
        responseHeaderRepetitions :=
          ((fieldsOf hs).foldl (fun s h => s.1.store s.2 h) (t.responseHeaders, t.responseHeaderRepetitions)).2 }) ∧
      (eoh || (rem.length == (p ++ (x ++ rest)).length && (rem == b! "\r\n" || rem == b! "\n"))) = true ∧
      (if (rem.length == (p ++ (x ++ rest)).length && (rem == b! "\r\n" || rem == b! "\n")) then
        (x ++ rest).length else (x ++ rest).length - rem.length) = x.length := by
  obtain ⟨rem, eoh, h1, h2, h3⟩ := parseResponseHeaders_block t hs hw rest hf
  have h0 : p ++ (x ++ rest) = renderBlock hs ++ rest := by rw [← hx, List.append_assoc]
  refine ⟨rem, eoh, by rw [h0]; exact h1, by rw [h0]; exact h2, ?_⟩
  rw [h0]
  have hpos : 2 ≤ (renderBlock hs).length := by rw [renderBlock_lines]; simp
  generalize (rem.length == (renderBlock hs ++ rest).length && (rem == b! "\r\n" || rem == b! "\n")) = b at h3 ⊢
  have hlen := congrArg List.length hx
  simp only [List.length_append] at h3 hlen ⊢
  cases b with
  | true =>
    simp only [if_true] at h3 ⊢
    omega
  | false =>
    simp only [Bool.false_eq_true, if_false] at h3 ⊢
    omega

end Model.Ans

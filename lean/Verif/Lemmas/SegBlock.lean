/-
A header block of which only the beginning is there.
-/
import Verif.Lemmas.ReqRounds
import Verif.Props.HeaderSplit

namespace Model

open M Spec Props

theorem render_ends (h : HeaderLine) (hw : h.WellFormed) : ∃ x, h.render = x ++ [10] ∧ (10 : UInt8) ∉ x := by
  refine ⟨h.name ++ 58 :: (h.before ++ h.value ++ h.after ++ [13]), by simp [HeaderLine.render], ?_⟩
  have h1 : ∀ c : UInt8, Tchar c → c ≠ 10 := by decide +kernel
  simp only [List.mem_append, List.mem_cons, not_or, List.not_mem_nil, or_false]
  refine ⟨fun hc => h1 _ (hw.token _ hc) rfl, by decide, ⟨⟨⟨?_, ?_⟩, ?_⟩, by decide⟩⟩
  · intro hc
    rcases hw.before_blank _ hc with h | h <;> cases h
  · intro hc
    exact (hw.no_break _ hc).2 rfl
  · intro hc
    rcases hw.after_blank _ hc with h | h <;> cases h

theorem render_noDeformed (h : HeaderLine) (hw : h.WellFormed) : NoDeformed (h.render ++ [65]) := by
  obtain ⟨x, hx, hn⟩ := render_ends h hw
  intro hi
  have h1 := hi.sublist.count_le (10 : UInt8)
  rw [hx, List.count_append, List.count_append, List.count_eq_zero_of_not_mem hn] at h1
  revert h1
  decide

/-- The beginning of a line, and even all of it: there may be more. -/
theorem header_prefix (h : HeaderLine) (hw : h.WellFormed) {i more : Bytes} (hi : i ++ more = h.render) :
    reqP.header i = .incomplete := by
  have hd := render_noDeformed h hw
  have h1 := header_line reqP h hw 65 [] (fun h => by cases h) (by decide)
  have h2 : h.render ++ [65] = i ++ (more ++ [65]) := by rw [← hi, List.append_assoc]
  rw [h2] at hd h1
  cases hh : reqP.header i with
  | incomplete => rfl
  | err =>
    refine absurd hh (header_ne_err hd.left ?_)
    rintro ⟨x, hx⟩
    rw [← hx] at hi
    cases hn : h.name with
    | nil => exact hw.nonempty hn
    | cons c cs =>
      have h3 := hw.token c (by rw [hn]; simp)
      simp only [HeaderLine.render, hn, List.cons_append, List.cons.injEq] at hi
      rw [← hi.1] at h3
      exact absurd h3 (by decide)
  | ok r x =>
    obtain ⟨h3, h4⟩ := header_ext hd hh
    rw [h1] at h3
    injection h3 with h3 _
    have := congrArg List.length h3
    cases r with
    | nil => exact absurd rfl h4
    | cons c r => simp at this

/-- The lines one after the other, without the empty line at the end. -/
def linesOf (hs : List HeaderLine) : Bytes := hs.flatMap HeaderLine.render

theorem renderBlock_lines (hs : List HeaderLine) : renderBlock hs = linesOf hs ++ [13, 10] := by
  induction hs with
  | nil => rfl
  | cons h hs ih => simp [renderBlock, ih, linesOf]

theorem lines_head {hs : List HeaderLine} (hw : ∀ h ∈ hs, h.WellFormed) {c : UInt8} {x : Bytes} (h : linesOf hs = c :: x) :
    Tchar c := by
  cases hs with
  | nil => cases h
  | cons a hs =>
    have ha := hw a (by simp)
    cases hn : a.name with
    | nil => exact absurd hn ha.nonempty
    | cons d ds =>
      simp only [linesOf, List.flatMap_cons, HeaderLine.render, hn, List.cons_append, List.cons.injEq] at h
      rw [← h.1]
      exact ha.token d (by rw [hn]; simp)

/-- The beginning of a block, at most all its lines: the lines of which something else has been seen are recognised. -/
theorem headersLoop_part (ls : List HeaderLine) : ∀ (i more : Bytes) (out : List ParsedHeader) (f : Nat), ls ≠ [] →
    (∀ h ∈ ls, h.WellFormed) → i ++ more = linesOf ls → i.length < f →
    ∃ js ms rest, ls = js ++ ms ∧ ms ≠ [] ∧ reqP.headersLoop f i out = .ok rest (out ++ js.map parsedLine, false) ∧
      rest ++ more = linesOf ms ∧ rest.length ≤ (ms.head?.map fun h => h.render.length).getD 0 := by
  induction ls with
  | nil => intro _ _ _ _ h; exact absurd rfl h
  | cons h ls ih =>
    intro i more out f _ hw hi hf
    have hh := hw h (by simp)
    obtain ⟨f, rfl⟩ : ∃ g, f = g + 1 := ⟨f - 1, by omega⟩
    have hi' : i ++ more = h.render ++ linesOf ls := by rw [hi]; simp [linesOf]
    rcases Nat.lt_or_ge h.render.length i.length with hl | hl
    · obtain ⟨c, i', rfl⟩ : ∃ c i', i = h.render ++ c :: i' := by
        have h1 : h.render = i.take h.render.length := by
          have := congrArg (List.take h.render.length) hi'
          rw [List.take_left, List.take_append_of_le_length (by omega)] at this
          exact this.symm
        have h2 := List.take_append_drop h.render.length i
        rw [← h1] at h2
        cases hd : i.drop h.render.length with
        | nil =>
          have := congrArg List.length hd
          rw [List.length_drop] at this
          simp at this
          omega
        | cons c i' => exact ⟨c, i', by rw [← hd, h2]⟩
      rw [List.append_assoc, List.append_cancel_left_eq] at hi'
      have hc := lines_head (fun x hx => hw x (List.mem_cons_of_mem _ hx)) hi'.symm
      have hc' : ∀ c : UInt8, Tchar c → c ≠ 32 ∧ c ≠ 9 ∧ c ≠ 0 ∧ c ≠ 13 ∧ c ≠ 10 := by decide +kernel
      obtain ⟨c1, c2, c3, c4, c5⟩ := hc' c hc
      have h3 := header_line reqP h hh c i' (fun h => by cases h) ⟨c1, c2, c3⟩
      have hls : ls ≠ [] := by rintro rfl; cases hi'
      obtain ⟨js, ms, rest, e1, e2, e3, e4, e5⟩ := ih (c :: i') more (out ++ [parsedLine h]) f hls
        (fun x hx => hw x (List.mem_cons_of_mem _ hx)) hi' (by rw [List.length_append] at hf; have : h.render.length ≠ 0 := by simp [HeaderLine.render]
                                                               omega)
      refine ⟨h :: js, ms, rest, by rw [e1]; rfl, e2, ?_, e4, e5⟩
      unfold HeaderParser.headersLoop
      rw [h3]
      dsimp only
      rw [afterHeader_none reqP h i' ⟨c4, c5⟩]
      dsimp only
      rw [show recovered h = parsedLine h from rfl, e3]
      simp
    · obtain ⟨m', hm⟩ : ∃ m', i ++ m' = h.render := by
        refine ⟨h.render.drop i.length, ?_⟩
        have := congrArg (List.take i.length) hi'
        rw [List.take_left, List.take_append_of_le_length hl] at this
        conv => lhs; lhs; rw [this]
        exact List.take_append_drop _ _
      refine ⟨[], h :: ls, i, rfl, by simp, ?_, hi, by simpa using hl⟩
      unfold HeaderParser.headersLoop
      rw [header_prefix h hh hm]
      simp

theorem parseRequestHeaders_part (t : Tx) (hp : t.requestHeaderParser = reqP) (ls : List HeaderLine) (hne : ls ≠ [])
    (hw : ∀ h ∈ ls, h.WellFormed) {i more : Bytes} (hi : i ++ more = linesOf ls) :
    ∃ js ms rest, ls = js ++ ms ∧ ms ≠ [] ∧ t.parseRequestHeaders i = ((rest, false),
      { t with
        requestHeaders := ((fieldsOf js).foldl (fun s h => s.1.store s.2 h) (t.requestHeaders, t.requestHeaderRepetitions)).1
        requestHeaderRepetitions :=
          ((fieldsOf js).foldl (fun s h => s.1.store s.2 h) (t.requestHeaders, t.requestHeaderRepetitions)).2 }) ∧
      rest ++ more = linesOf ms ∧ rest.length ≤ (ms.head?.map fun h => h.render.length).getD 0 := by
  obtain ⟨js, ms, rest, e1, e2, e3, e4, e5⟩ := headersLoop_part ls i more [] (i.length + 1) hne hw hi (by omega)
  refine ⟨js, ms, rest, e1, e2, ?_, e4, e5⟩
  by_cases h0 : reqP.header i = .incomplete
  · have h1 : t.requestHeaderParser.headers i = .incomplete := by rw [hp]; simp [HeaderParser.headers, h0]
    unfold HeaderParser.headersLoop at e3
    rw [h0] at e3
    simp only [List.nil_append, IRes.ok.injEq, Prod.mk.injEq, and_true] at e3
    have hj : js = [] := by cases js with
      | nil => rfl
      | cons => simp at e3
    unfold Tx.parseRequestHeaders
    rw [h1, ← e3.1, hj]
    rfl
  · have h1 : t.requestHeaderParser.headers i = .ok rest (js.map parsedLine, false) := by
      rw [hp, headers_eq_loop _ _ h0, e3, List.nil_append]
    unfold Tx.parseRequestHeaders
    rw [h1]
    dsimp only
    rw [accept_lines]

end Model

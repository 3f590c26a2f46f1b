/-
The response that grants a tunnel, in pieces (C74).
-/
import Verif.Lemmas.ConnectPieces
import Verif.Props.Connect
import Verif.Props.Download

namespace Props

open Model Spec

/-- Some calls with parts of the status line. -/
theorem verdict_lines {e : Env} {s0 : Conn} {t0 : Tx} {a : Response} (F : Verdict.Fits e s0 t0 a) (lead : List Bytes) :
    ∀ {start : List Event} {p rem : Bytes} {s : Conn}, Verdict.LineStage s0 t0 start p s → (∀ c ∈ lead, c ≠ []) →
    p ++ lead.flatten ++ rem = a.line →
    ∃ start', responseAnswers e (lead.map .data) s = lead.map (fun _ => .ok (some .data)) ∧
      Verdict.LineStage s0 t0 start' (p ++ lead.flatten) (feedResponse e (lead.map .data) s) ∧
      (feedResponse e (lead.map .data) s).trace ++ start' = s.trace ++ start := by
  induction lead with
  | nil =>
    intro start p rem s h _ _
    exact ⟨start, rfl, by rw [List.flatten_nil, List.append_nil]; exact h, rfl⟩
  | cons c cs ih =>
    intro start p rem s h hne hp
    obtain ⟨s1, h1, h2, h3⟩ := Verdict.line_call F h (hne c (by simp)) (rem := cs.flatten ++ rem) (by simpa using hp)
    have hrun : (Op.response (.data c)).run e s = (.ok (some .data), s1) := h1
    have hafter : (Op.response (.data c)).after e s = s1 := congrArg Prod.snd hrun
    obtain ⟨st, i1, i2, i3⟩ := ih h2 (fun x hx => hne x (by simp [hx])) (rem := rem) (by simpa using hp)
    have hfeed : feedResponse e ((c :: cs).map Chunk.data) s = feedResponse e (cs.map Chunk.data) s1 := by
      show feedResponse e (cs.map .data) ((Op.response (.data c)).after e s) = _
      rw [hafter]
    refine ⟨st, ?_, ?_, ?_⟩
    · show ((Op.response _).run e s).1 :: responseAnswers e (cs.map .data) ((Op.response _).after e s) = _
      rw [hafter, hrun, i1]
      rfl
    · rw [hfeed]
      simpa using i2
    · rw [hfeed, i3, h3, List.append_nil]

/-- The calls with the rest of the header block. -/
theorem verdict_fields {e : Env} {s0 : Conn} {t0 : Tx} {a : Response} (F : Verdict.Fits e s0 t0 a) (tail : List Bytes) :
    ∀ {s : Conn}, (if tail = [] then Verdict.Over s0 t0 a s else Verdict.HeadStage e s0 t0 a tail.flatten s) → (∀ c ∈ tail, c ≠ []) →
    responseAnswers e (tail.map .data) s = tail.map (fun _ => .ok (some .data)) ∧
      Verdict.Over s0 t0 a (feedResponse e (tail.map .data) s) ∧
      (feedResponse e (tail.map .data) s).trace = s.trace ++ (tail.map (fun c => .data .responseHeaderData s0.txs.response (.ofBytes c)) ++
        if tail = [] then [] else [.tx .responseHeaders s0.txs.response, .tx .responseComplete s0.txs.response]) := by
  induction tail with
  | nil =>
    intro s h _
    rw [if_pos rfl] at h
    exact ⟨rfl, h, (List.append_nil _).symm⟩
  | cons c cs ih =>
    intro s h hne
    rw [if_neg (by simp), List.flatten_cons] at h
    obtain ⟨s1, h1, h2, h3⟩ := Verdict.head_call F h (hne c (by simp))
    have hrun : (Op.response (.data c)).run e s = (.ok (some .data), s1) := h1
    have hafter : (Op.response (.data c)).after e s = s1 := congrArg Prod.snd hrun
    have hcs : ∀ c ∈ cs, c ≠ [] := fun x hx => hne x (by simp [hx])
    have hnil : cs.flatten = [] ↔ cs = [] := by
      constructor
      · intro h
        cases cs with
        | nil => rfl
        | cons d ds =>
          rw [List.flatten_cons] at h
          exact absurd (List.append_eq_nil_iff.mp h).1 (hcs d (by simp))
      · rintro rfl; rfl
    have h3' : if cs = [] then Verdict.Over s0 t0 a s1 else Verdict.HeadStage e s0 t0 a cs.flatten s1 := by
      simpa only [hnil] using h3
    obtain ⟨i1, i2, i3⟩ := ih h3' hcs
    have hfeed : feedResponse e ((c :: cs).map Chunk.data) s = feedResponse e (cs.map Chunk.data) s1 := by
      show feedResponse e (cs.map .data) ((Op.response (.data c)).after e s) = _
      rw [hafter]
    refine ⟨?_, ?_, ?_⟩
    · show ((Op.response _).run e s).1 :: responseAnswers e (cs.map .data) ((Op.response _).after e s) = _
      rw [hafter, hrun, i1]
      rfl
    · rw [hfeed]; exact i2
    · rw [hfeed, i3, h2]
      by_cases h0 : cs = []
      · subst h0; simp
      · simp [h0, hnil]

/-- C74, the tunnel is granted, in pieces: as `C74_accepted`, where the response comes in any number of calls, cut anywhere
except within the line end of its status line (`C62_status_line_end_cut`): `lead` and `x` are the status line, `y` and
`tail` the header fields with the empty line. Every call answers that it took everything in. The header data is handed
out piece by piece. -/
theorem C74_accepted_pieces {e : Env} {s : Conn} (hs : Reachable e s) (hcb : CallbacksOK e) {t : Tx} {r : Request}
    (hn : Negotiates s t) (hr : RecordsConnect t s.txs.request r) (hu : Unanswered t) (hb : BetweenResponses s)
    (hk : s.txs.response = s.txs.request) {a : Response} (ha : a.WellFormed true) (hc : a.code ≤ 299)
    (hlimit : a.line.length + 2 ≤ e.cfg.fieldLimit) (hfields : ∀ h ∈ a.headers, h.render.length + 1 ≤ e.cfg.fieldLimit)
    {lead tail : List Bytes} {x y : Bytes} (hlead : ∀ c ∈ lead, c ≠ []) (htail : ∀ c ∈ tail, c ≠ [])
    (hline : lead.flatten ++ x = a.line) (hblock : y ++ tail.flatten = renderBlock a.headers) :
    let pieces := lead ++ (x ++ [13, 10] ++ y) :: tail
    let final := feedResponse e (pieces.map .data) s
    responseAnswers e (pieces.map .data) s = pieces.map (fun _ => .ok (some .data)) ∧
    final.trace = s.trace ++ ([.tx .responseStart s.txs.request, .tx .responseLine s.txs.request] ++
      (y :: tail).map (fun c => .data .responseHeaderData s.txs.request (.ofBytes c)) ++
      [.tx .responseHeaders s.txs.request, .tx .responseComplete s.txs.request]) ∧
    (∃ t', Negotiates final t' ∧ RecordsConnect t' s.txs.request r ∧ RecordsVerdict t' a ∧ Decided t' ∧ Granted final t' []) ∧
    final.txs.response = s.txs.response + 1 ∧ final.txs.request = s.txs.request ∧ final.req = s.req ∧
    (∀ j, j < s.txs.request → final.txs.get j = s.txs.get j) ∧ BetweenResponses final := by
  intro pieces final
  have F : Verdict.Fits e s t a := ⟨hcb, hn, hk, hr.index.trans hk.symm, hr.methodNumber, hr.progress, hr.notProtocol09, hu, ha, hc, hlimit, hfields⟩
  have h0 : Verdict.LineStage s t [.tx .responseStart s.txs.response] [] s :=
    ⟨⟨rfl, rfl, rfl, hb.notBlocked, (reachable_bounded hs).1, fun _ _ => rfl⟩, .inl ⟨rfl, rfl, hb, by rw [hk]; exact hn.current⟩⟩
  obtain ⟨st, a1, a2, a3⟩ := verdict_lines F lead h0 hlead (rem := x) (by simpa using hline)
  generalize hs1 : feedResponse e (lead.map .data) s = s1 at a2 a3
  obtain ⟨s2, b1, b2, b3⟩ := Verdict.line_end F a2 (x := x) (y := y) (b := tail.flatten) (by simpa using hline) hblock
  have hrun : (Op.response (.data (x ++ [13, 10] ++ y))).run e s1 = (.ok (some .data), s2) := b1
  have hafter : (Op.response (.data (x ++ [13, 10] ++ y))).after e s1 = s2 := congrArg Prod.snd hrun
  have hnil : tail.flatten = [] ↔ tail = [] := by
    constructor
    · intro h
      cases tail with
      | nil => rfl
      | cons d ds =>
        rw [List.flatten_cons] at h
        exact absurd (List.append_eq_nil_iff.mp h).1 (htail d (by simp))
    · rintro rfl; rfl
  obtain ⟨c1, c2, c3⟩ := verdict_fields F tail (s := s2) (by simpa only [hnil] using b3) htail
  have hfin : final = feedResponse e (tail.map .data) s2 := by
    show feedResponse e ((lead ++ (x ++ [13, 10] ++ y) :: tail).map .data) s = _
    rw [List.map_append, List.map_cons]
    unfold feedResponse at hs1 ⊢
    rw [List.foldl_append, hs1]
    show feedResponse e (tail.map .data) ((Op.response _).after e s1) = _
    rw [hafter]
    rfl
  rw [hfin]
  obtain ⟨t', d1, d2, d3⟩ := c2.records
  refine ⟨?_, ?_, ⟨t', d1, recordsConnect_side hr d3, d2, ⟨d2.progress, _, d2.statusNumber⟩,
    .waiting _ d1 d2.progress d2.statusNumber ⟨ha.code.1, hc⟩⟩, c2.response, c2.request, c2.req, c2.earlier, c2.between⟩
  · show responseAnswers e ((lead ++ (x ++ [13, 10] ++ y) :: tail).map .data) s = (lead ++ (x ++ [13, 10] ++ y) :: tail).map _
    rw [List.map_append, List.map_cons, (responseAnswers_append _ _ _ _).1, a1, hs1, List.map_append, List.map_cons]
    show _ ++ ((Op.response _).run e s1).1 :: responseAnswers e (tail.map .data) ((Op.response _).after e s1) = _
    rw [hafter, hrun, c1]
  · rw [c3, b2, ← List.append_assoc, ← List.append_assoc, ← List.append_assoc, a3, hk]
    by_cases ht : tail = []
    · subst ht; simp
    · simp [ht, hnil]

/-- Case for C74_accepted_pieces: the status line in two pieces and the header block in three. -/
example : Reachable sampleEnv connectAsked ∧ CallbacksOK sampleEnv ∧
    (∃ t, Negotiates connectAsked t ∧ RecordsConnect t connectAsked.txs.request connectRequest ∧ Unanswered t) ∧
    BetweenResponses connectAsked ∧ connectAsked.txs.response = connectAsked.txs.request ∧ connectGranted.WellFormed true ∧
    connectGranted.code ≤ 299 ∧ connectGranted.line.length + 2 ≤ sampleEnv.cfg.fieldLimit ∧
    (∀ h ∈ connectGranted.headers, h.render.length + 1 ≤ sampleEnv.cfg.fieldLimit) ∧
    ([connectGranted.line.take 5].flatten ++ connectGranted.line.drop 5 = connectGranted.line) ∧
    (∀ c ∈ [(renderBlock connectGranted.headers).take 1, (renderBlock connectGranted.headers).drop 1], c ≠ []) ∧
    [] ++ [(renderBlock connectGranted.headers).take 1, (renderBlock connectGranted.headers).drop 1].flatten =
      renderBlock connectGranted.headers := by
  obtain ⟨h1, -, h2, h3, h4, t, h5, h6, h7, -⟩ := connectAsked_facts
  exact ⟨h1, fun _ _ => rfl, ⟨t, h5, h6, h7⟩, h2, h4.trans h3.symm, connectGranted_wellFormed, by decide, by decide +kernel, by decide +kernel,
    by simp, by decide +kernel, by decide +kernel⟩

end Props

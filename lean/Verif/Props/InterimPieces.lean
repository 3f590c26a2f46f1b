/-
Interim responses in pieces (C71).
-/
import Verif.Lemmas.InterimPieces
import Verif.Props.Interim

namespace Props

open Model Spec

/-- C71, interim responses in pieces: any number of interim responses to a parser that is between two responses (or has
read interim responses before) and has seen the request, at least in part, cut anywhere except within a status line, and
received in any number of calls that end with the last of them. Every call answers that it took everything in. A callback
is run for every status line, and at the end of each call one for the header data after the last status line; none that
would report a response complete. The parser awaits another status line, for the same transaction, which knows none of
the header fields of the interim responses and keeps everything that was recorded of the request; other transactions and
the request side of the parser are untouched. Only the last of the interim responses may be without header fields
(`C71_no_headers_swallows_final`). -/
theorem C71_interim_pieces_partial {e : Env} (hcb : CallbacksOK e) {s : Conn} {t : Tx} {start : List Event} (hs : Reachable e s)
    (hg : s.txs.get s.txs.response = some t) (hp : NextStatusLine s t start) (ha : Asked t)
    (interims : List Response)
    (hi : ∀ i ∈ interims, i.Interim ∧ i.line.length + 2 ≤ e.cfg.fieldLimit ∧ ∀ h ∈ i.headers, h.render.length + 1 ≤ e.cfg.fieldLimit)
    (hf : ∀ i ∈ interims.dropLast, i.headers ≠ [])
    (pieces : List (List Token)) (hne : ∀ c ∈ pieces, c ≠ []) (hnil : pieces ≠ [])
    (hall : pieces.flatten = interims.flatMap Response.interimTokens) :
    let calls := pieces.map fun c => Chunk.data (bytesOf c)
    let final := feedResponse e calls s
    responseAnswers e calls s = pieces.map (fun _ => .ok (some .data)) ∧
    final.trace = s.trace ++ (start ++ pieces.flatMap (interimPieceCallbacks s.txs.response [])) ∧
    (∃ t', AwaitsResponse final t' ∧ requestSide t' = requestSide t) ∧
    final.txs.response = s.txs.response ∧
    (∀ j, j ≠ s.txs.response → final.txs.get j = s.txs.get j) ∧
    final.req = s.req ∧ final.txs.request = s.txs.request := by
  have hx := (reachable_store hs).index _ _ hg
  have hcut : Ans.Cutting e t (pieces.flatten ++ []) start s :=
    ⟨(reachable_bounded hs).1, hp.notBlocked, .inl ⟨interims, t, by rw [List.append_nil]; exact hall, ⟨hi, hf⟩, hg, hp, rfl⟩⟩
  clear hs hg hp hall hi hf
  intro calls final
  have key : ∀ (pieces : List (List Token)) (start : List Event) (s : Conn), (∀ c ∈ pieces, c ≠ []) → t.index = s.txs.response →
      Ans.Cutting e t (pieces.flatten ++ []) start s →
      responseAnswers e (pieces.map fun c => Chunk.data (bytesOf c)) s = pieces.map (fun _ => .ok (some .data)) ∧
      (pieces ≠ [] → (feedResponse e (pieces.map fun c => Chunk.data (bytesOf c)) s).trace =
        s.trace ++ (start ++ pieces.flatMap (interimPieceCallbacks s.txs.response []))) ∧
      Ans.Cutting e t [] (if pieces = [] then start else []) (feedResponse e (pieces.map fun c => Chunk.data (bytesOf c)) s) ∧
      (feedResponse e (pieces.map fun c => Chunk.data (bytesOf c)) s).txs.response = s.txs.response ∧
      (∀ j, j ≠ s.txs.response → (feedResponse e (pieces.map fun c => Chunk.data (bytesOf c)) s).txs.get j = s.txs.get j) ∧
      (feedResponse e (pieces.map fun c => Chunk.data (bytesOf c)) s).req = s.req ∧
      (feedResponse e (pieces.map fun c => Chunk.data (bytesOf c)) s).txs.request = s.txs.request := by
    intro pieces
    induction pieces with
    | nil =>
      intro start s _ _ h
      exact ⟨rfl, fun h => absurd rfl h, h, rfl, fun _ _ => rfl, rfl, rfl⟩
    | cons c cs ih =>
      intro start s hne hx h
      rw [List.flatten_cons, List.append_assoc] at h
      obtain ⟨s1, h1, hc1, htr, hr, ho, hq, hreq⟩ := h.call hcb ha hx (hne c (by simp))
      have hrun : (Op.response (.data (bytesOf c))).run e s = (.ok (some .data), s1) := h1
      have hafter : (Op.response (.data (bytesOf c))).after e s = s1 := congrArg Prod.snd hrun
      have hfeed : feedResponse e ((c :: cs).map fun c => Chunk.data (bytesOf c)) s = feedResponse e (cs.map fun c => Chunk.data (bytesOf c)) s1 := by
        show feedResponse e _ ((Op.response _).after e s) = _
        rw [hafter]
      obtain ⟨i1, i2, i3, i4, i5, i6, i7⟩ := ih [] s1 (fun x hx => hne x (by simp [hx])) (by rw [hr]; exact hx) hc1
      rw [hfeed]
      refine ⟨?_, fun _ => ?_, ?_, i4.trans hr, fun j hj => (i5 j (by rw [hr]; exact hj)).trans (ho j hj), i6.trans hreq, i7.trans hq⟩
      · show ((Op.response _).run e s).1 :: responseAnswers e _ ((Op.response _).after e s) = _
        rw [hafter, hrun, i1]
        rfl
      · by_cases h0 : cs = []
        · subst h0
          show s1.trace = _
          rw [htr]
          simp
        · rw [i2 h0, htr, hr]
          simp
      · rw [if_neg (by simp)]
        simpa using i3
  obtain ⟨k1, k2, k3, k4, k5, k6, k7⟩ := key pieces start s hne hx hcut
  refine ⟨k1, k2 hnil, ?_, k4, k5, k6, k7⟩
  rw [if_neg hnil] at k3
  rcases k3.here with ⟨is, t', -, -, h3, h4, h5⟩ | ⟨-, -, i, rest, b, t', h3, -, -, w⟩
  · generalize hst : ([] : List Event) = st at h4
    cases h4 with
    | between => cases hst
    | waiting h => exact ⟨t', h, h5⟩
  · have := (List.append_eq_nil_iff.mp h3.symm).1
    exact absurd (List.map_eq_nil_iff.mp this) w.left

/-- Case for C71_interim_pieces_partial: two interim responses while the request's body is awaited, the first cut inside a
header field and just before its empty line, the second in the middle of its empty line. -/
example : Reachable sampleEnv expecting ∧ CallbacksOK sampleEnv ∧
    (∃ t, expecting.txs.get expecting.txs.response = some t ∧
      NextStatusLine expecting t [.tx .responseStart expecting.txs.response] ∧ Asked t) ∧
    (∀ i ∈ [datedInterim, bareInterim], i.Interim ∧ i.line.length + 2 ≤ sampleEnv.cfg.fieldLimit ∧
      ∀ h ∈ i.headers, h.render.length + 1 ≤ sampleEnv.cfg.fieldLimit) ∧
    (∀ i ∈ [datedInterim, bareInterim].dropLast, i.headers ≠ []) ∧
    (∀ c ∈ [.line (datedInterim.line ++ [13, 10]) :: loose (b! "Date: to"), loose (b! "day\r\nX: 1\r\n"),
      loose (b! "\r\n") ++ .line (bareInterim.line ++ [13, 10]) :: loose (b! "\r"), loose (b! "\n")], c ≠ []) ∧
    [.line (datedInterim.line ++ [13, 10]) :: loose (b! "Date: to"), loose (b! "day\r\nX: 1\r\n"),
      loose (b! "\r\n") ++ .line (bareInterim.line ++ [13, 10]) :: loose (b! "\r"), loose (b! "\n")].flatten =
      [datedInterim, bareInterim].flatMap Response.interimTokens := by
  refine ⟨expecting_facts.1, fun _ _ => rfl, expecting_facts.2, ?_, by decide +kernel, ?_, rfl⟩
  rotate_left
  · simp [loose]
  intro i hi
  simp only [List.mem_cons, List.not_mem_nil, or_false] at hi
  rcases hi with rfl | rfl
  · exact ⟨datedInterim_interim, by decide +kernel, by decide +kernel⟩
  · exact ⟨bareInterim_interim, by decide +kernel, by decide +kernel⟩

end Props

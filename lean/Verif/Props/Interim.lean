/-
Interim responses (C71).
-/
import Verif.Lemmas.InterimCut
import Verif.Props.Answer

namespace Props

open Model Spec

/-- C71, the interim responses: any number of calls with any number of interim responses each, to a parser that is between
two responses (or has read interim responses before) and has seen the request, at least in part. Every call answers that
it took everything in. A callback is run for every status line, and at the end of the call one for the header block of the
last of them; none that would report a response complete. The parser awaits another status line, for the same
transaction, which knows none of the header fields of the interim responses and keeps everything that was recorded of the
request; other transactions and the request side of the parser are untouched.
An interim response without header fields must be the last one in its call (`C71_no_headers_swallows_final`). -/
theorem C71_interim_calls_partial {e : Env} (hcb : CallbacksOK e) (groups : List (List Response)) :
    ∀ {s : Conn} {t : Tx} {start : List Event}, Reachable e s → s.txs.get s.txs.response = some t → NextStatusLine s t start → Asked t →
    groups ≠ [] → (∀ g ∈ groups, g ≠ []) →
    (∀ g ∈ groups, ∀ i ∈ g, i.Interim ∧ i.line.length + 2 ≤ e.cfg.fieldLimit) →
    (∀ g ∈ groups, ∀ i ∈ g.dropLast, i.headers ≠ []) →
    let calls := groups.map fun g => Chunk.data (g.flatMap Response.render)
    let final := feedResponse e calls s
    responseAnswers e calls s = groups.map (fun _ => .ok (some .data)) ∧
    final.trace = s.trace ++ (start ++ groups.flatMap (interimCallbacks s.txs.response)) ∧
    (∃ t', AwaitsResponse final t' ∧ requestSide t' = requestSide t) ∧
    final.txs.response = s.txs.response ∧
    (∀ j, j ≠ s.txs.response → final.txs.get j = s.txs.get j) ∧
    final.req = s.req ∧ final.txs.request = s.txs.request := by
  induction groups with
  | nil => intro _ _ _ _ _ _ _ h; exact absurd rfl h
  | cons g gs ih =>
    intro s t start hs hg hp ha _ hne hi hf
    obtain ⟨s1, t1, h1, hw1, hsame1, htr1, hr1, -, ho1, hq1, hreq1⟩ := call_interims hcb hp (reachable_bounded hs).1 hg
      ((reachable_store hs).index _ _ hg) ha g (hne g (by simp)) (hi g (by simp)) (hf g (by simp))
    have hrun : (Op.response (.data (g.flatMap Response.render))).run e s = (.ok (some .data), s1) := h1
    have hafter : (Op.response (.data (g.flatMap Response.render))).after e s = s1 := congrArg Prod.snd hrun
    have ha1 : Asked t1 := by
      refine ⟨?_, ?_, ?_⟩
      · rw [show t1.requestProgress = t.requestProgress from by have := congrArg Tx.requestProgress hsame1; exact this]; exact ha.started
      · rw [show t1.requestMethodNumber = t.requestMethodNumber from by
          have := congrArg Tx.requestMethodNumber hsame1; exact this]
        exact ha.notConnect
      · rw [show t1.isProtocol09 = t.isProtocol09 from by have := congrArg Tx.isProtocol09 hsame1; exact this]; exact ha.notProtocol09
    have hans : ∀ cs, responseAnswers e (.data (g.flatMap Response.render) :: cs) s = .ok (some .data) :: responseAnswers e cs s1 := by
      intro cs
      show ((Op.response _).run e s).1 :: responseAnswers e cs ((Op.response _).after e s) = _
      rw [hafter, hrun]
    have hfeed : ∀ cs, feedResponse e (.data (g.flatMap Response.render) :: cs) s = feedResponse e cs s1 := by
      intro cs
      show feedResponse e cs ((Op.response _).after e s) = _
      rw [hafter]
    by_cases h0 : gs = []
    · subst h0
      refine ⟨?_, ?_, ⟨t1, ?_, hsame1⟩, ?_, ?_, ?_, ?_⟩
      · rw [List.map_cons, hans]; rfl
      · rw [List.map_cons, hfeed]
        show s1.trace = _
        rw [htr1]
        simp
      · rw [List.map_cons, hfeed]; exact hw1
      · rw [List.map_cons, hfeed]; exact hr1
      · rw [List.map_cons, hfeed]; exact ho1
      · rw [List.map_cons, hfeed]; exact hreq1
      · rw [List.map_cons, hfeed]; exact hq1
    · have hs1 : Reachable e s1 := .call _ _ hs hrun
      obtain ⟨i1, i2, ⟨t2, i3, i4⟩, i5, i6, i7, i8⟩ := ih hs1 hw1.current (.waiting hw1) ha1 h0 (fun x hx => hne x (by simp [hx]))
        (fun x hx => hi x (by simp [hx])) (fun x hx => hf x (by simp [hx]))
      refine ⟨?_, ?_, ⟨t2, ?_, i4.trans hsame1⟩, ?_, ?_, ?_, ?_⟩
      · rw [List.map_cons, hans, i1]; rfl
      · rw [List.map_cons, hfeed, i2, htr1, hr1]
        simp
      · rw [List.map_cons, hfeed]; exact i3
      · rw [List.map_cons, hfeed, i5, hr1]
      · intro j hj
        rw [List.map_cons, hfeed, i6 j (by rw [hr1]; exact hj), ho1 j hj]
      · rw [List.map_cons, hfeed, i7, hreq1]
      · rw [List.map_cons, hfeed, i8, hq1]

/-- C71, the final response: in the same call as interim responses, or alone, to a parser that is between two responses or
has read interim responses in earlier calls. The call answers that it took everything in. The callbacks are run that
belong to the final response, those for its start only if it was not run for an interim response before, and before them
one for every status line of an interim response in the call; no header data of the interim responses in the call is
handed out. The transaction records the final response and nothing of the interim ones, and keeps everything that was
recorded of the request (or the transaction is removed, if the configuration says so); other transactions and the request
side of the parser are untouched, and the parser is between two responses again. -/
theorem C71_final_response_partial {e : Env} {s : Conn} (hs : Reachable e s) (hcb : CallbacksOK e) {t : Tx} {start : List Event}
    (hg : s.txs.get s.txs.response = some t) (hp : NextStatusLine s t start) {r : Response} (ha : AnswerableNow s t r)
    (hlimit : r.line.length + 2 ≤ e.cfg.fieldLimit)
    (interims : List Response) (hi : ∀ i ∈ interims, i.Interim ∧ i.line.length + 2 ≤ e.cfg.fieldLimit)
    (hf : ∀ i ∈ interims, i.headers ≠ []) :
    let call := Op.response (.data (interims.flatMap Response.render ++ r.render))
    let final := call.after e s
    (call.run e s).1 = .ok (some .data) ∧
    final.trace = s.trace ++ (start ++ (interims.map (fun _ => .tx .responseLine s.txs.response) ++
      (r.callbacks s.txs.response).tail)) ∧
    (if e.cfg.txAutoDestroy then final.txs.get s.txs.response = none
      else ∃ t', final.txs.get s.txs.response = some t' ∧ RecordsResponse t' r ∧ requestSide t' = requestSide t) ∧
    final.txs.response = s.txs.response + 1 ∧
    (∀ j, (j < s.txs.response ∨ s.txs.response + 1 < j ∨ (j = s.txs.response + 1 ∧ (s.txs.get j).isSome)) →
      final.txs.get j = s.txs.get j) ∧
    final.req = s.req ∧ final.txs.request = s.txs.request ∧
    BetweenResponses final := by
  obtain ⟨s1, h1, h2, h3, h4, h5, h6, h7, h8⟩ := call_final hcb hp (reachable_bounded hs).1 hg ((reachable_store hs).index _ _ hg) ha
    interims hi hf hlimit
  intro call final
  have hrun : call.run e s = (.ok (some .data), s1) := h1
  have hfin : final = s1 := congrArg Prod.snd hrun
  rw [hfin]
  exact ⟨by rw [hrun], h2, h3, h4, h6, h8, h7, h5⟩

/-- C71, the final response in pieces: the first piece comes with interim responses, if any, and contains the status line
(`C71_status_line_as_headers`); the others are cut as in C62, and further responses may follow, to the requests after
this one. Every call answers that it took everything in, the same callbacks are run as if the responses had come whole,
except that header and body data may be handed out in several pieces, and the same is recorded. -/
theorem C71_final_pieces_partial {e : Env} {s : Conn} (hs : Reachable e s) (hcb : CallbacksOK e) {t : Tx} {start : List Event}
    (hg : s.txs.get s.txs.response = some t) (hp : NextStatusLine s t start) {r : Response} (ha : Answerable t r)
    (rs : List Response)
    (hrs : ∀ i r', rs[i]? = some r' → ∃ t', s.txs.get (s.txs.response + (i + 1)) = some t' ∧ AnswerableBy t' r')
    (hlimit : ∀ r' ∈ r :: rs, r'.line.length + 2 ≤ e.cfg.fieldLimit ∧
      ∀ h ∈ r'.headers ++ r'.body.trailer, h.render.length + 1 ≤ e.cfg.fieldLimit)
    (hfill : ∀ r' ∈ (r :: rs).dropLast, r'.Filled)
    (interims : List Response) (hi : ∀ i ∈ interims, i.Interim ∧ i.line.length + 2 ≤ e.cfg.fieldLimit)
    (hf : ∀ i ∈ interims, i.headers ≠ [])
    (first : List Token) (others : List (List Token)) (hfirst : r.lineTokens <+: first) (hne : ∀ c ∈ others, c ≠ [])
    (hall : first ++ others.flatten = (r :: rs).flatMap Response.tokens) :
    let calls := Chunk.data (interims.flatMap Response.render ++ bytesOf first) :: others.map fun c => .data (bytesOf c)
    let final := feedResponse e calls s
    responseAnswers e calls s = calls.map (fun _ => .ok (some .data)) ∧
    (∃ evs, final.trace = s.trace ++ (start ++ (interims.map (fun _ => .tx .responseLine s.txs.response) ++ evs)) ∧
      Pieces (responseCallbacks s.txs.response (r :: rs)).tail evs) ∧
    (∀ i r', (r :: rs)[i]? = some r' →
      if e.cfg.txAutoDestroy then final.txs.get (s.txs.response + i) = none
      else ∃ t t', s.txs.get (s.txs.response + i) = some t ∧ final.txs.get (s.txs.response + i) = some t' ∧
        RecordsResponse t' r' ∧ requestSide t' = requestSide t) ∧
    final.txs.response = s.txs.response + (rs.length + 1) ∧
    (∀ j, j < s.txs.response ∨ s.txs.response + (rs.length + 1) < j → final.txs.get j = s.txs.get j) ∧
    final.req = s.req ∧ final.txs.request = s.txs.request ∧
    BetweenResponses final := by
  have hidx := (reachable_store hs).index
  have hrs' : ∀ i r', rs[i]? = some r' → ∃ t', s.txs.get (s.txs.response + (i + 1)) = some t' ∧
      t'.index = s.txs.response + (i + 1) ∧ AnswerableBy t' r' := by
    intro i r' hr'
    obtain ⟨t', h1, h2⟩ := hrs i r' hr'
    exact ⟨t', h1, hidx _ _ h1, h2⟩
  obtain ⟨s0, s1, g, h1, F, hM, hk, hsaid, hass, hbef, hresp0, hreq0, hq0, hget0, hoth0⟩ := Ans.call_interims_line hcb hp
    (reachable_bounded hs).1 hg (hidx _ _ hg) ha rs hrs' (fun r' h => (hlimit r' h).1) (fun r' h => (hlimit r' h).2) hfill interims hi hf
    first others.flatten hfirst hall
  have hbytes : ∀ c ∈ others, ∀ x ∈ c, x.bytes ≠ [] := by
    intro c hc x hx
    have h2 : x ∈ (r :: rs).flatMap Response.tokens := by
      rw [← hall]
      exact List.mem_append_right _ (List.mem_flatten.mpr ⟨c, hc, hx⟩)
    obtain ⟨r', hr', hx'⟩ := List.mem_flatMap.mp h2
    rcases List.mem_cons.mp hr' with rfl | hr'
    · exact Ans.tokens_ne ha.response x hx'
    · obtain ⟨i, hi', rfl⟩ := List.mem_iff_getElem.mp hr'
      obtain ⟨t', -, hat⟩ := hrs i rs[i] (List.getElem?_eq_getElem hi')
      exact Ans.tokens_ne hat.response x hx'
  have hrun : (Op.response (.data (interims.flatMap Response.render ++ bytesOf first))).run e s = (.ok (some .data), s1) := h1
  have hafter : (Op.response (.data (interims.flatMap Response.render ++ bytesOf first))).after e s = s1 := congrArg Prod.snd hrun
  obtain ⟨h2, h3⟩ := Ans.calls_pieces (later := []) F others hne hbytes (by rw [List.append_nil]; exact hM)
  intro calls final
  have hfin : final = feedResponse e (others.map fun c => .data (bytesOf c)) s1 := by
    show feedResponse e _ ((Op.response _).after e s) = _
    rw [hafter]
  rw [← hfin] at h3
  obtain ⟨u, hb, -, -, evs, htr, hpc⟩ := h3.over
  rw [hk, List.filter_eq_self.2 (fun _ _ => rfl), hbef] at htr
  rw [hsaid, hass, hresp0] at hpc
  refine ⟨?_, ⟨evs, by rw [htr]; simp, pieces_tail hpc⟩, ?_, ?_, ?_, u.req.trans hq0, u.request.trans hreq0, hb⟩
  · show ((Op.response _).run e s).1 :: responseAnswers e _ ((Op.response _).after e s) = _
    rw [hafter, hrun, h2]
    simp [calls]
  · intro i r' hr'
    have h4 := u.records i r' hr'
    unfold AnswerKept at h4
    rw [hresp0] at h4
    split
    · next ha' => rw [if_pos ha'] at h4; exact h4
    · next ha' =>
      rw [if_neg ha'] at h4
      obtain ⟨t0, t', h5, h6, h7, h8⟩ := h4
      by_cases h0 : i = 0
      · subst h0
        rw [Nat.add_zero, hget0] at h5
        cases h5
        exact ⟨t, t', hg, h6, h7, h8⟩
      · rw [hoth0 _ (by omega)] at h5
        exact ⟨t0, t', h5, h6, h7, h8⟩
  · rw [u.response, hresp0]; rfl
  · intro j hj
    rw [u.others j (by rw [hresp0]; simpa using hj)]
    exact hoth0 j (by omega)

/-- Interim responses for the cases below: without and with header fields. -/
def bareInterim : Response :=
  { protocol := b! "HTTP/1.1", code := 100, message := b! "Continue", headers := [], body := .absent }
def datedInterim : Response :=
  { protocol := b! "HTTP/1.1", code := 100, message := b! "Continue"
    headers := [⟨b! "Date", b! " ", b! "today", []⟩, ⟨b! "X", b! " ", b! "1", []⟩], body := .absent }

theorem bareInterim_interim : bareInterim.Interim :=
  ⟨⟨⟨.v1_1, by decide +kernel⟩, by decide, by decide +kernel, by decide +kernel⟩, rfl, rfl, (fun _ h => by cases h.1),
    (fun _ h => by cases h.1), fun j h => by simp [bareInterim] at h⟩

theorem datedInterim_interim : datedInterim.Interim := by
  refine ⟨⟨⟨.v1_1, by decide +kernel⟩, by decide, by decide +kernel, by decide +kernel⟩, rfl, rfl, ?_, ?_, ?_⟩
  · exact fun h hh => absurd hh.2 ((by decide +kernel : ∀ h ∈ datedInterim.headers, ¬ EqNocase h.name _) h hh.1)
  · exact fun h hh => absurd hh.2 ((by decide +kernel : ∀ h ∈ datedInterim.headers, ¬ EqNocase h.name _) h hh.1)
  · intro j hj
    have hj' : j < 2 := hj
    unfold before
    exact Nat.lt_of_le_of_lt List.countP_le_length (by rw [List.length_range]; exact hj')

/-- A request that announces its body and waits for permission to send it. -/
def expectingRequest : Bytes := b! "PUT /x HTTP/1.1\r\nHost: a\r\nExpect: 100-continue\r\nContent-Length: 2\r\n\r\n"

/-- A parser that has seen the head of that request; then the body as well. -/
def expecting : Conn := Conn.history sampleEnv [.request (.data expectingRequest)]
def expectedBody : Conn := Conn.history sampleEnv [.request (.data expectingRequest), .request (.data (b! "ok"))]

/-- What has to be looked at in a state for the cases below. -/
theorem next_of {s : Conn}
    (ht : ((s.txs.get s.txs.response).map fun t => (responseSide t, t.requestProgress, t.requestMethodNumber, t.isProtocol09)) =
      some ({ index := 0 }, .complete, .put, false) ∨
      ((s.txs.get s.txs.response).map fun t => (responseSide t, t.requestProgress, t.requestMethodNumber, t.isProtocol09)) =
      some ({ index := 0 }, .body, .put, false))
    (hb : s.resp = {}) (ho : s.responseDataOtherAtTxEnd = false) :
    ∃ t, s.txs.get s.txs.response = some t ∧ NextStatusLine s t [.tx .responseStart s.txs.response] ∧ Asked t := by
  rcases h : s.txs.get s.txs.response with _ | t
  · rw [h] at ht; rcases ht with ht | ht <;> cases ht
  · rw [h] at ht
    refine ⟨t, rfl, .between ⟨by rw [hb], by rw [hb], by rw [hb], by rw [hb], by rw [hb]; exact .inl rfl, ho⟩ ?_, ?_⟩
    · rcases ht with ht | ht
      all_goals simp only [Option.map_some, Option.some.injEq, Prod.mk.injEq] at ht; exact ht.1
    · rcases ht with ht | ht
      all_goals
        simp only [Option.map_some, Option.some.injEq, Prod.mk.injEq] at ht
        exact ⟨by rw [ht.2.1]; decide, by rw [ht.2.2.1]; decide, ht.2.2.2⟩

set_option maxRecDepth 8000 in
theorem expecting_facts : Reachable sampleEnv expecting ∧
    ∃ t, expecting.txs.get expecting.txs.response = some t ∧
    NextStatusLine expecting t [.tx .responseStart expecting.txs.response] ∧ Asked t := by
  refine ⟨.history _ ?_, next_of (.inr ?_) ?_ ?_⟩ <;> decide_cbv

/-- Case for C71_interim_calls_partial: two interim responses in one call and one in the next, while the request's body is awaited. -/
example : Reachable sampleEnv expecting ∧ CallbacksOK sampleEnv ∧
    (∃ t, expecting.txs.get expecting.txs.response = some t ∧
      NextStatusLine expecting t [.tx .responseStart expecting.txs.response] ∧ Asked t) ∧
    (∀ g ∈ [[datedInterim, bareInterim], [datedInterim]], ∀ i ∈ g, i.Interim ∧ i.line.length + 2 ≤ sampleEnv.cfg.fieldLimit) ∧
    (∀ g ∈ [[datedInterim, bareInterim], [datedInterim]], ∀ i ∈ g.dropLast, i.headers ≠ []) := by
  refine ⟨expecting_facts.1, fun _ _ => rfl, expecting_facts.2, ?_, by decide +kernel⟩
  have hd := datedInterim_interim
  have hb := bareInterim_interim
  have h1 : datedInterim.line.length + 2 ≤ sampleEnv.cfg.fieldLimit := by decide +kernel
  have h2 : bareInterim.line.length + 2 ≤ sampleEnv.cfg.fieldLimit := by decide +kernel
  intro g hg i hi
  simp only [List.mem_cons, List.not_mem_nil, or_false] at hg
  rcases hg with rfl | rfl <;> simp only [List.mem_cons, List.not_mem_nil, or_false] at hi
  · rcases hi with rfl | rfl
    · exact ⟨hd, h1⟩
    · exact ⟨hb, h2⟩
  · rw [hi]; exact ⟨hd, h1⟩

/-- What has to be looked at in a state that a final response is sent to. -/
theorem answerable_of {s : Conn} {t : Tx} (hg : s.txs.get s.txs.response = some t)
    (ht : (s.txs.get s.txs.response).map (fun t => (t.requestProgress, t.requestMethodNumber, t.isProtocol09)) =
      some (.complete, .put, false)) {r : Response} (hc : r.code < 400) (hr : r.WellFormed false) : Answerable t r := by
  rw [hg] at ht
  simp only [Option.map_some, Option.some.injEq, Prod.mk.injEq] at ht
  exact ⟨ht.1, by rw [ht.2.1]; decide, ht.2.2, .inr (by omega), by rw [ht.2.1]; exact hr⟩

set_option maxRecDepth 8000 in
theorem expectedBody_facts : Reachable sampleEnv expectedBody ∧
    ∃ t, expectedBody.txs.get expectedBody.txs.response = some t ∧
      NextStatusLine expectedBody t [.tx .responseStart expectedBody.txs.response] ∧ Answerable t sizedResponse := by
  have hr : Reachable sampleEnv expectedBody := .history _ (by decide_cbv)
  obtain ⟨t, h1, h2, -⟩ := next_of (s := expectedBody) (.inl (by decide_cbv)) (by decide_cbv) (by decide_cbv)
  exact ⟨hr, t, h1, h2, answerable_of h1 (by decide_cbv) (by decide) sizedResponse_wellFormed⟩

/-- Case for C71_final_response_partial: an interim response with header fields and the final response in one call. -/
example : Reachable sampleEnv expectedBody ∧ CallbacksOK sampleEnv ∧
    (∃ t, expectedBody.txs.get expectedBody.txs.response = some t ∧
      NextStatusLine expectedBody t [.tx .responseStart expectedBody.txs.response] ∧ AnswerableNow expectedBody t sizedResponse) ∧
    sizedResponse.line.length + 2 ≤ sampleEnv.cfg.fieldLimit ∧
    (∀ i ∈ [datedInterim, datedInterim], i.Interim ∧ i.line.length + 2 ≤ sampleEnv.cfg.fieldLimit) ∧
    (∀ i ∈ [datedInterim, datedInterim], i.headers ≠ []) := by
  obtain ⟨h1, t, h2, h3, h4⟩ := expectedBody_facts
  refine ⟨h1, fun _ _ => rfl, ⟨t, h2, h3, h4.now _⟩, by decide +kernel, ?_, by decide +kernel⟩
  intro i hi
  simp only [List.mem_cons, List.not_mem_nil, or_false, or_self] at hi
  rw [hi]
  exact ⟨datedInterim_interim, by decide +kernel⟩

/-- Case for C71_final_pieces_partial: an interim response and the status line of the final response in one call, then the
header fields, cut in the middle of one, and then the rest. -/
example : Reachable sampleEnv expectedBody ∧ CallbacksOK sampleEnv ∧
    (∃ t, expectedBody.txs.get expectedBody.txs.response = some t ∧
      NextStatusLine expectedBody t [.tx .responseStart expectedBody.txs.response] ∧ Answerable t sizedResponse) ∧
    (∀ r' ∈ [sizedResponse], r'.line.length + 2 ≤ sampleEnv.cfg.fieldLimit ∧
      ∀ h ∈ r'.headers ++ r'.body.trailer, h.render.length + 1 ≤ sampleEnv.cfg.fieldLimit) ∧
    (∀ i ∈ [datedInterim], i.Interim ∧ i.line.length + 2 ≤ sampleEnv.cfg.fieldLimit) ∧ (∀ i ∈ [datedInterim], i.headers ≠ []) ∧
    sizedResponse.lineTokens <+: sizedResponse.lineTokens ∧
    (∀ c ∈ [loose (b! "Content-Le"), loose (b! "ngth: 2\r\n\r\nh"), loose (b! "i")], c ≠ []) ∧
    sizedResponse.lineTokens ++ [loose (b! "Content-Le"), loose (b! "ngth: 2\r\n\r\nh"), loose (b! "i")].flatten =
      [sizedResponse].flatMap Response.tokens := by
  refine ⟨expectedBody_facts.1, fun _ _ => rfl, expectedBody_facts.2, by decide +kernel, ?_, by decide +kernel, List.prefix_refl _,
    by decide +kernel, ?_⟩
  · intro i hi
    rw [List.mem_singleton.mp hi]
    exact ⟨datedInterim_interim, by decide +kernel⟩
  · rw [List.flatMap_cons, List.flatMap_nil, List.append_nil, Response.tokens, Response.lineTokens, List.append_assoc]
    exact congrArg (loose sizedResponse.line ++ ·) rfl

set_option maxRecDepth 8000 in
/-- The unconditional property is false. An interim response without header fields (the usual form) and the final response
come in the same call: the final response is taken for header fields of the interim one, and handed out as such. -/
theorem C71_no_headers_swallows_final :
    bareInterim.Interim ∧ Reachable sampleEnv expectedBody ∧
    (∃ t, expectedBody.txs.get expectedBody.txs.response = some t ∧
      NextStatusLine expectedBody t [.tx .responseStart expectedBody.txs.response] ∧ Answerable t sizedResponse) ∧
    ∀ final, (Op.response (.data (bareInterim.render ++ sizedResponse.render))).after sampleEnv expectedBody = final →
      .tx .responseComplete 0 ∉ final.trace ∧
      .data .responseHeaderData 0 (.ofBytes (13 :: 10 :: sizedResponse.render)) ∈ final.trace ∧
      (final.txs.get 0).map (·.responseStatusNumber) = some (.valid 100) := by
  refine ⟨bareInterim_interim, expectedBody_facts.1, expectedBody_facts.2, ?_⟩
  rintro _ rfl
  refine ⟨?_, ?_, ?_⟩ <;> decide_cbv

set_option maxRecDepth 8000 in
/-- A call that ends within the status line of the final response: the beginning of that line is handed out as header
data of the interim response before it. -/
theorem C71_status_line_as_headers :
    ∀ final, (Op.response (.data (datedInterim.render ++ b! "HTTP/"))).after sampleEnv expectedBody = final →
      .data .responseHeaderData 0 (.ofBytes (renderBlock datedInterim.headers ++ b! "HTTP/")) ∈ final.trace := by
  rintro _ rfl
  decide_cbv

set_option maxRecDepth 8000 in
/-- Header fields of an interim response that come more than twice count towards the bound on repeated fields of the final
response, although the fields themselves are dropped. -/
theorem C71_repetitions_kept :
    ∀ final, (Op.response (.data (b! "HTTP/1.1 100 Continue\r\nX: 1\r\nX: 2\r\nX: 3\r\n\r\n"))).after sampleEnv expectedBody = final →
      (final.txs.get 0).map (fun t => (t.responseHeaders, t.responseHeaderRepetitions)) = some ([], 1) := by
  rintro _ rfl
  decide_cbv

end Props

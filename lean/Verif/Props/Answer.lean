/- C59: a sequence of well-formed responses is recovered and matched with the requests. -/
import Verif.Lemmas.RespSequence
import Verif.Props.Message

namespace Props
open Model Spec

/-- The responses of one call, as the call gets them. -/
def responseChunk (g : List Response) : Chunk := .data (g.flatMap Response.render)

theorem calls_responses {e : Env} (hcb : CallbacksOK e) (groups : List (List Response)) :
    ∀ {s : Conn}, (∀ g ∈ groups, g ≠ []) → (∀ g ∈ groups, ∀ r ∈ g, r.line.length + 2 ≤ e.cfg.fieldLimit) →
    (∀ g ∈ groups, ∀ r ∈ g.dropLast, r.Filled) → BetweenResponses s → AllAnswerable s groups.flatten →
    responseAnswers e (groups.map responseChunk) s = groups.map (fun _ => .ok (some .data)) ∧
    AnswersDone e.cfg.txAutoDestroy s (feedResponse e (groups.map responseChunk) s) groups.flatten := by
  induction groups with
  | nil =>
    intro s _ _ _ hb _
    exact ⟨rfl, .nil hb⟩
  | cons g gs ih =>
    intro s hne hr hf hb ha
    rw [List.flatten_cons] at ha
    have hag : AllAnswerable s g := by
      intro i r hi
      have hl := (List.getElem?_eq_some_iff.1 hi).1
      exact ha i r (by rw [List.getElem?_append_left hl]; exact hi)
    obtain ⟨s1, h1, hd⟩ := call_responses hcb g (hne g (by simp)) (hr g (by simp)) hb hag (hf g (by simp))
    have hrun : (Op.response (responseChunk g)).run e s = (.ok (some .data), s1) := h1
    have hafter : (Op.response (responseChunk g)).after e s = s1 := by
      show ((Op.response (responseChunk g)).run e s).2 = s1
      rw [hrun]
    obtain ⟨ha2, hd2⟩ := ih (fun x hx => hne x (by simp [hx])) (fun x hx => hr x (by simp [hx]))
      (fun x hx => hf x (by simp [hx])) hd.between (ha.after hd)
    constructor
    · show ((Op.response (responseChunk g)).run e s).1 ::
        responseAnswers e (gs.map responseChunk) ((Op.response (responseChunk g)).after e s) = _
      rw [hafter, ha2, hrun]
      rfl
    · show AnswersDone _ s (feedResponse e (gs.map responseChunk) ((Op.response (responseChunk g)).after e s)) (g :: gs).flatten
      rw [hafter, List.flatten_cons]
      refine hd.trans hd2 ?_
      intro hne'
      cases hq : gs.flatten with
      | nil => exact absurd hq hne'
      | cons r rs =>
        obtain ⟨t, ht, -⟩ := ha g.length r (by rw [List.getElem?_append_right (Nat.le_refl _), hq, Nat.sub_self]; rfl)
        rw [ht]
        rfl

theorem lookup_nocase_none {hs : List HeaderLine} (hw : ∀ h ∈ hs, h.WellFormed) {key : Bytes}
    (hn : ∀ h ∈ hs, ¬ EqNocase h.name key) (m : Flags) : Headers.getNocase (storedTable m (fieldsOf hs)) key = none := by
  cases hr : Headers.getNocase (storedTable m (fieldsOf hs)) key with
  | none => rfl
  | some x =>
    have h1 := C04_headers_get_nocase (storedTable m (fieldsOf hs)) key
    rw [hr] at h1
    obtain ⟨a, b, h2, h3, -⟩ := h1
    obtain ⟨i, hi, -, rfl⟩ := mem_storedTable (x := x) (by rw [h2]; simp)
    obtain ⟨h, hm, he⟩ := List.mem_map.1 (field_mem hi)
    have hname : (stored m (fieldsOf hs) i).name = h.name := by
      show (field (fieldsOf hs) i).name = _
      exact (congrArg Header.name he).symm
    rw [hname] at h3
    obtain ⟨mid, ⟨pre, post, hsp, hpre, hpost, -, -⟩, hmid⟩ := h3
    have hws : ∀ c : UInt8, Tchar c → c ∉ asciiWhitespace := by decide +kernel
    have htok : ∀ c ∈ pre ++ mid ++ post, Tchar c := by rw [← hsp]; exact (hw h hm).token
    obtain rfl : pre = [] := by
      cases pre with
      | nil => rfl
      | cons c pre => exact absurd (hpre c (by simp)) (hws c (htok c (by simp)))
    obtain rfl : post = [] := by
      cases post with
      | nil => rfl
      | cons c post => exact absurd (hpost c (by simp)) (hws c (htok c (by simp)))
    rw [List.nil_append, List.append_nil] at hsp
    rw [← hsp] at hmid
    exact absurd hmid (hn h hm)

/-- The transaction of a well-formed request without the field "Expect" can be answered, and one with it by a response
that does not refuse it. -/
theorem answerable {t : Tx} {k : Nat} {q : Request} {r : Response} (hq : q.WellFormed) (ht : Records t k q) (hu : Unanswered t)
    (he : (∀ h ∈ q.headers ++ q.body.trailer, ¬ EqNocase h.name (b! "expect")) ∨ ¬ (400 ≤ r.code ∧ r.code ≤ 499))
    (hr : r.WellFormed (decide (q.method = b! "HEAD"))) : AnswerableBy t r := by
  have h1 : ∀ p ∈ methods, p.2 ≠ .connect ∧ (p.1 = b! "HEAD" ↔ p.2 = .head) := by decide +kernel
  have h2 := h1 _ ht.methodNumber
  refine ⟨ht.progress, hu, h2.1, ht.notProtocol09, ?_, by rw [← decide_eq_decide.2 h2.2]; exact hr⟩
  refine he.imp_left fun he => ?_
  rw [ht.headers]
  refine lookup_nocase_none ?_ he _
  intro h hh
  rcases List.mem_append.1 hh with hh | hh
  · exact hq.headers h hh
  · have hf := hq.framed
    unfold Request.Framed at hf
    cases hb : q.body with
    | absent => rw [hb] at hh; cases hh
    | sized => rw [hb] at hh; cases hh
    | chunked chunks last trailer => rw [hb] at hh hf; exact hf.2.2.2.2 h hh

/-- C59: well-formed responses, delivered by any number of calls with any number of responses each, to a parser that is
between two responses and has seen the requests they answer. Every call answers that it took everything in. For each
response, in their order, the callbacks are run that belong to it, under the index of the request it answers, with its
header block and its body and nothing else. It is recorded in the transaction of that request, which keeps everything
that was recorded of the request (or the transaction is removed, if the configuration says so); other transactions
and the request side of the parser are untouched, and the parser is between two responses again.
Missing: a response with an empty header block or trailer must be the last one in its call
(`C59_chunked_swallows_next`, `C59_no_headers_swallows_next`), one with the code 204 or 304 must not have the field
"Content-Length" (`C59_not_modified_with_length`). -/
theorem C59_responses_partial {e : Env} {s : Conn} (hs : Reachable e s) (hcb : CallbacksOK e) (hb : BetweenResponses s)
    (groups : List (List Response)) (hne : ∀ g ∈ groups, g ≠ [])
    (ha : ∀ i r, groups.flatten[i]? = some r → ∃ t, s.txs.get (s.txs.response + i) = some t ∧ AnswerableBy t r)
    (hlimit : ∀ g ∈ groups, ∀ r ∈ g, r.line.length + 2 ≤ e.cfg.fieldLimit)
    (hfill : ∀ g ∈ groups, ∀ r ∈ g.dropLast, r.Filled) :
    let calls := groups.map fun g => Chunk.data (g.flatMap Response.render)
    let final := feedResponse e calls s
    responseAnswers e calls s = groups.map (fun _ => .ok (some .data)) ∧
    final.trace = s.trace ++ responseCallbacks s.txs.response groups.flatten ∧
    (∀ i r, groups.flatten[i]? = some r →
      if e.cfg.txAutoDestroy then final.txs.get (s.txs.response + i) = none
      else ∃ t t', s.txs.get (s.txs.response + i) = some t ∧ final.txs.get (s.txs.response + i) = some t' ∧
        RecordsResponse t' r ∧ requestSide t' = requestSide t) ∧
    final.txs.response = s.txs.response + groups.flatten.length ∧
    (∀ j, j < s.txs.response ∨ s.txs.response + groups.flatten.length < j → final.txs.get j = s.txs.get j) ∧
    final.req = s.req ∧ final.txs.request = s.txs.request ∧
    BetweenResponses final := by
  have hi := (reachable_store hs).index
  obtain ⟨h1, h2⟩ := calls_responses hcb groups hne hlimit hfill hb (fun i r hr => by
    obtain ⟨t, ht, hat⟩ := ha i r hr
    exact ⟨t, ht, hi _ _ ht, hat⟩)
  exact ⟨h1, h2.trace, h2.records, h2.response, fun j hj => h2.others j (by omega), h2.req, h2.request, h2.between⟩

/-- Responses for the cases below: with a body of announced length; chunked, with a trailer; chunked without a trailer;
without header fields. -/
def sizedResponse : Response :=
  { protocol := b! "HTTP/1.1", code := 200, message := b! "OK"
    headers := [⟨b! "Content-Length", b! " ", b! "2", []⟩], body := .sized (b! "hi") }
def trailerResponse : Response :=
  { protocol := b! "HTTP/1.1", code := 200, message := b! "OK"
    headers := [⟨b! "Transfer-Encoding", b! " ", b! "Chunked", []⟩]
    body := .chunked [⟨b! "3;x\r\n", b! "abc"⟩, ⟨b! "1\r\n", b! "d"⟩] (b! "0\r\n") [⟨b! "X", b! " ", b! "y", []⟩] }
def noTrailerResponse : Response :=
  { protocol := b! "HTTP/1.1", code := 200, message := b! "OK"
    headers := [⟨b! "Transfer-Encoding", b! " ", b! "chunked", []⟩]
    body := .chunked [⟨b! "3\r\n", b! "abc"⟩] (b! "0\r\n") [] }
def noHeadersResponse : Response :=
  { protocol := b! "HTTP/1.1", code := 204, message := b! "No Content", headers := [], body := .absent }

theorem sizedResponse_wellFormed : sizedResponse.WellFormed false := by
  refine ⟨⟨.v1_1, by decide +kernel⟩, by decide, by decide +kernel, by decide +kernel, ⟨rfl, ?_, ?_, ?_, by decide +kernel⟩,
    by decide +kernel, ?_⟩
  · exact fun h hh => absurd hh.2 ((by decide +kernel : ∀ h ∈ sizedResponse.headers, ¬ EqNocase h.name _) h hh.1)
  · exact ⟨⟨b! "Content-Length", b! " ", b! "2", []⟩, by decide +kernel, by decide +kernel⟩
  · exact fun h hh => (by decide +kernel : ∀ h ∈ sizedResponse.headers, EqNocase h.name _ → h.value = _) h hh.1 hh.2
  · exact fun h hh => absurd hh.2 ((by decide +kernel : ∀ h ∈ sizedResponse.headers, ¬ EqNocase h.name _) h hh.1)

theorem trailerResponse_wellFormed : trailerResponse.WellFormed false := by
  refine ⟨⟨.v1_1, by decide +kernel⟩, by decide, by decide +kernel, by decide +kernel, ⟨rfl, ?_, ?_, ?_, ?_, ?_⟩,
    by decide +kernel, ?_⟩
  · exact ⟨⟨b! "Transfer-Encoding", b! " ", b! "Chunked", []⟩, by decide +kernel, by decide +kernel⟩
  · exact fun h hh => (by decide +kernel : ∀ h ∈ trailerResponse.headers, EqNocase h.name _ → EqNocase h.value _) h hh.1 hh.2
  · intro c hc
    simp only [List.mem_cons, List.not_mem_nil, or_false] at hc
    rcases hc with rfl | rfl
    · exact ⟨⟨b! "3", b! ";x\r", by decide +kernel, by decide +kernel, by decide +kernel, by decide +kernel, by decide +kernel, by decide +kernel⟩, by decide +kernel, by decide +kernel⟩
    · exact ⟨⟨b! "1", b! "\r", by decide +kernel, by decide +kernel, by decide +kernel, by decide +kernel, by decide +kernel, by decide +kernel⟩, by decide +kernel, by decide +kernel⟩
  · exact ⟨b! "0", b! "\r", by decide +kernel, by decide +kernel, by decide +kernel, by decide +kernel, by decide +kernel, by decide +kernel⟩
  · decide +kernel
  · exact fun h hh => absurd hh.2 ((by decide +kernel : ∀ h ∈ trailerResponse.headers, ¬ EqNocase h.name _) h hh.1)

theorem noTrailerResponse_wellFormed : noTrailerResponse.WellFormed false := by
  refine ⟨⟨.v1_1, by decide +kernel⟩, by decide, by decide +kernel, by decide +kernel, ⟨rfl, ?_, ?_, ?_, ?_, ?_⟩,
    by decide +kernel, ?_⟩
  · exact ⟨⟨b! "Transfer-Encoding", b! " ", b! "chunked", []⟩, by decide +kernel, by decide +kernel⟩
  · exact fun h hh => (by decide +kernel : ∀ h ∈ noTrailerResponse.headers, EqNocase h.name _ → EqNocase h.value _) h hh.1 hh.2
  · intro c hc
    simp only [List.mem_cons, List.not_mem_nil, or_false] at hc
    subst hc
    exact ⟨⟨b! "3", b! "\r", by decide +kernel, by decide +kernel, by decide +kernel, by decide +kernel, by decide +kernel, by decide +kernel⟩, by decide +kernel, by decide +kernel⟩
  · exact ⟨b! "0", b! "\r", by decide +kernel, by decide +kernel, by decide +kernel, by decide +kernel, by decide +kernel, by decide +kernel⟩
  · decide +kernel
  · exact fun h hh => absurd hh.2 ((by decide +kernel : ∀ h ∈ noTrailerResponse.headers, ¬ EqNocase h.name _) h hh.1)

theorem noHeadersResponse_wellFormed : noHeadersResponse.WellFormed false :=
  ⟨⟨.v1_1, by decide +kernel⟩, by decide, by decide +kernel, by decide +kernel,
    Or.inr ⟨.inl rfl, (fun _ h => by cases h.1), (fun _ h => by cases h.1)⟩, by decide +kernel, (fun _ h => by cases h.1)⟩

/-- A parser that has seen two requests and no response. -/
def twoAsked : Conn := feedRequest sampleEnv [requestChunk (threeRequests.take 2)] {}

theorem twoAsked_facts : Reachable sampleEnv twoAsked ∧ BetweenResponses twoAsked ∧ twoAsked.txs.response = 0 ∧
    ∀ r : Response, r.WellFormed false → ∀ i < 2, ∃ t, twoAsked.txs.get (0 + i) = some t ∧ AnswerableBy t r := by
  have hw : Willing sampleEnv := ⟨fun _ _ => rfl, .inr (by decide), fun f h => by cases h⟩
  have hlim : ∀ r ∈ threeRequests, r.line.length + 2 ≤ sampleEnv.cfg.fieldLimit := by decide +kernel
  obtain ⟨s1, h1, hd, -⟩ := call_requests hw (threeRequests.take 2) (by decide)
    (fun r hr => ⟨threeRequests_wellFormed r (List.mem_of_mem_take hr), hlim r (List.mem_of_mem_take hr)⟩)
    (s := {}) ⟨rfl, rfl, rfl, rfl, .inl rfl, .inl rfl, fun _ _ => rfl⟩ (m := 0) ⟨.nil, .inl ⟨rfl, by decide⟩⟩ (by decide)
  have hrun : (Op.request (requestChunk (threeRequests.take 2))).run sampleEnv {} = (.ok (some .data), s1) := h1
  have he : twoAsked = s1 := congrArg Prod.snd hrun
  rw [he]
  refine ⟨.call _ _ .new hrun, ?_, hd.response, ?_⟩
  · have hr : s1.resp = {} := hd.resp.trans (by decide)
    exact ⟨by rw [hr], by rw [hr], by rw [hr], by rw [hr], by rw [hr]; exact .inl rfl, hd.blocked⟩
  · intro r hr i hi
    have hex : ∀ q ∈ threeRequests, q.method ≠ b! "HEAD" ∧
      ∀ h ∈ q.headers ++ q.body.trailer, ¬ EqNocase h.name (b! "expect") := by decide +kernel
    obtain ⟨q, hq⟩ : ∃ q, (threeRequests.take 2)[i]? = some q := by
      match i, hi with
      | 0, _ => exact ⟨_, rfl⟩
      | 1, _ => exact ⟨_, rfl⟩
    obtain ⟨t, ht, hrec, hun⟩ := hd.records i q hq
    have hm := List.mem_of_mem_take (List.mem_of_getElem? hq)
    exact ⟨t, ht, answerable (threeRequests_wellFormed q hm) hrec hun (.inl (hex q hm).2)
      (by rw [decide_eq_false (hex q hm).1]; exact hr)⟩

/-- Case for C59: two responses in one call, then none is left to be answered; or each in its own call, without a
trailer, without header fields. -/
example : Reachable sampleEnv twoAsked ∧ CallbacksOK sampleEnv ∧ BetweenResponses twoAsked ∧ twoAsked.txs.response = 0 ∧
    (∀ i r, [[trailerResponse, sizedResponse]].flatten[i]? = some r →
      ∃ t, twoAsked.txs.get (0 + i) = some t ∧ AnswerableBy t r) ∧
    (∀ i r, [[noTrailerResponse], [noHeadersResponse]].flatten[i]? = some r →
      ∃ t, twoAsked.txs.get (0 + i) = some t ∧ AnswerableBy t r) ∧
    trailerResponse.Filled := by
  obtain ⟨h1, h2, h3, h4⟩ := twoAsked_facts
  refine ⟨h1, fun _ _ => rfl, h2, h3, ?_, ?_, by decide, ?_⟩
  · intro i r hi
    match i with
    | 0 => cases hi; exact h4 _ trailerResponse_wellFormed _ (by decide)
    | 1 => cases hi; exact h4 _ sizedResponse_wellFormed _ (by decide)
  · intro i r hi
    match i with
    | 0 => cases hi; exact h4 _ noTrailerResponse_wellFormed _ (by decide)
    | 1 => cases hi; exact h4 _ noHeadersResponse_wellFormed _ (by decide)
  · intro _ _ h; cases h

set_option maxRecDepth 8000 in
/-- The unconditional property is false. A chunked response without a trailer is followed by another response in the
same call: the second one is taken for the trailer of the first, and neither is ever reported complete. (The end of an
empty trailer is only seen where the data of the call end.) -/
theorem C59_chunked_swallows_next :
    (∀ i r, [noTrailerResponse, sizedResponse][i]? = some r →
      ∃ t, twoAsked.txs.get (twoAsked.txs.response + i) = some t ∧ AnswerableBy t r) ∧
    ∀ final, (Op.response (.data ([noTrailerResponse, sizedResponse].flatMap Response.render))).after sampleEnv twoAsked = final →
      .tx .responseStart 1 ∉ final.trace ∧ .tx .responseComplete 0 ∉ final.trace ∧
      .data .responseTrailerData 0 (.ofBytes (13 :: 10 :: sizedResponse.render)) ∈ final.trace := by
  constructor
  · obtain ⟨-, -, h3, h4⟩ := twoAsked_facts
    rw [h3]
    intro i r hi
    match i with
    | 0 => cases hi; exact h4 _ noTrailerResponse_wellFormed _ (by decide)
    | 1 => cases hi; exact h4 _ sizedResponse_wellFormed _ (by decide)
  · rintro _ rfl
    decide_cbv

set_option maxRecDepth 8000 in
/-- The same with an empty header block: the next response is taken for header fields. -/
theorem C59_no_headers_swallows_next :
    (∀ i r, [noHeadersResponse, sizedResponse][i]? = some r →
      ∃ t, twoAsked.txs.get (twoAsked.txs.response + i) = some t ∧ AnswerableBy t r) ∧
    ∀ final, (Op.response (.data ([noHeadersResponse, sizedResponse].flatMap Response.render))).after sampleEnv twoAsked = final →
      .tx .responseStart 1 ∉ final.trace ∧ .tx .responseComplete 0 ∉ final.trace := by
  constructor
  · obtain ⟨-, -, h3, h4⟩ := twoAsked_facts
    rw [h3]
    intro i r hi
    match i with
    | 0 => cases hi; exact h4 _ noHeadersResponse_wellFormed _ (by decide)
    | 1 => cases hi; exact h4 _ sizedResponse_wellFormed _ (by decide)
  · rintro _ rfl
    decide_cbv

set_option maxRecDepth 8000 in
/-- A response with the code 304 has no body, whatever its fields say (RFC 7230, 3.3.3). Here it announces the length
that the body would have: the beginning of the next response is taken for that body. -/
theorem C59_not_modified_with_length :
    ∀ final, (Op.response (.data (b! "HTTP/1.1 304 Not Modified\r\nContent-Length: 8\r\n\r\n" ++
        sizedResponse.render))).after sampleEnv twoAsked = final →
      .data .responseBodyData 0 { data := some (b! "HTTP/1.1") } ∈ final.trace := by
  rintro _ rfl
  decide_cbv

end Props

/- C62: responses that arrive in pieces are recovered exactly. -/
import Verif.Lemmas.AnsMain

namespace Props
open Model Spec

/-- C62: well-formed responses, delivered in pieces, to a parser that is between two responses and has seen the requests
they answer. The pieces may begin and end in the middle of a status line, anywhere in the header fields, in the empty
line after them, in a body, in the data of a chunk or the line end after them, and in a trailer; only the line end of
the status line and chunk-size lines are not cut (`Response.tokens`). Every call answers that it took everything in. The
same callbacks are run as if the responses had come whole (C59), except that header and body data may be handed out in
several pieces, which make up the same data. The same is recorded in the transactions, and the parser is between two
responses again.
As in C59, a response with an empty header block or trailer must be the last one of its group: what is left of it is not
in one piece with the beginning of the next response. -/
theorem C62_pieces_partial {e : Env} {s : Conn} (hs : Reachable e s) (hcb : CallbacksOK e) (hb : BetweenResponses s)
    (groups : List (List Response × List (List Token)))
    (ha : ∀ i r, (groups.flatMap (·.1))[i]? = some r → ∃ t, s.txs.get (s.txs.response + i) = some t ∧ AnswerableBy t r)
    (hlimit : ∀ g ∈ groups, ∀ r ∈ g.1, r.line.length + 2 ≤ e.cfg.fieldLimit ∧
      ∀ h ∈ r.headers ++ r.body.trailer, h.render.length + 1 ≤ e.cfg.fieldLimit)
    (hfill : ∀ g ∈ groups, ∀ r ∈ g.1.dropLast, r.Filled)
    (hne : ∀ g ∈ groups, ∀ c ∈ g.2, c ≠ [])
    (hall : ∀ g ∈ groups, g.2.flatten = g.1.flatMap Response.tokens) :
    let responses := groups.flatMap (·.1)
    let pieces := groups.flatMap (·.2)
    let calls := pieces.map fun c => Chunk.data (bytesOf c)
    let final := feedResponse e calls s
    responseAnswers e calls s = pieces.map (fun _ => .ok (some .data)) ∧
    (∃ evs, final.trace = s.trace ++ evs ∧ Pieces (responseCallbacks s.txs.response responses) evs) ∧
    (∀ i r, responses[i]? = some r →
      if e.cfg.txAutoDestroy then final.txs.get (s.txs.response + i) = none
      else ∃ t t', s.txs.get (s.txs.response + i) = some t ∧ final.txs.get (s.txs.response + i) = some t' ∧
        RecordsResponse t' r ∧ requestSide t' = requestSide t) ∧
    final.txs.response = s.txs.response + responses.length ∧
    (∀ j, j < s.txs.response ∨ s.txs.response + responses.length < j → final.txs.get j = s.txs.get j) ∧
    final.req = s.req ∧ final.txs.request = s.txs.request ∧
    BetweenResponses final := by
  have hi := (reachable_store hs).index
  obtain ⟨h1, h2⟩ := Ans.pieces_groups hcb groups (s := s) (reachable_bounded hs).1 hb (fun i r hr => by
    obtain ⟨t, ht, hat⟩ := ha i r hr
    exact ⟨t, ht, hi _ _ ht, hat⟩) (fun g hg r hr => (hlimit g hg r hr).1) (fun g hg r hr => (hlimit g hg r hr).2) hfill hne hall
  have hd := h2.done
  obtain ⟨-, evs, htr, hp⟩ := h2.traced
  rw [Log.all_filter] at htr
  exact ⟨h1, ⟨evs, htr, hp⟩, hd.records, hd.response, fun j hj => hd.others j (by omega), hd.req, hd.request,
    hd.between.state, hd.between.buf, hd.between.header, hd.between.receiver, hd.between.status, hd.between.notBlocked⟩

/-- Two responses in tokens. -/
def twoTokens : List Token := [trailerResponse, sizedResponse].flatMap Response.tokens

/-- Case for C62: two responses, the first with a chunked body and a trailer, delivered one token at a time. -/
example : Reachable sampleEnv twoAsked ∧ CallbacksOK sampleEnv ∧ BetweenResponses twoAsked ∧ twoAsked.txs.response = 0 ∧
    (∀ i r, ([([trailerResponse, sizedResponse], twoTokens.map fun t => [t])].flatMap (·.1))[i]? = some r →
      ∃ t, twoAsked.txs.get (0 + i) = some t ∧ AnswerableBy t r) ∧
    (∀ r ∈ [trailerResponse, sizedResponse], r.line.length + 2 ≤ sampleEnv.cfg.fieldLimit ∧
      ∀ h ∈ r.headers ++ r.body.trailer, h.render.length + 1 ≤ sampleEnv.cfg.fieldLimit) ∧
    trailerResponse.Filled ∧ (twoTokens.map fun t => [t]).flatten = [trailerResponse, sizedResponse].flatMap Response.tokens ∧
    (twoTokens.map fun t => [t]).length = 104 := by
  obtain ⟨h1, h2, h3, h4⟩ := twoAsked_facts
  refine ⟨h1, fun _ _ => rfl, h2, h3, ?_, by decide +kernel, ⟨by decide, ?_⟩,
    (List.flatMap_def ..).symm.trans (List.flatMap_singleton' _), by decide_cbv⟩
  · intro i r hi
    match i with
    | 0 => cases hi; exact h4 _ trailerResponse_wellFormed _ (by decide)
    | 1 => cases hi; exact h4 _ sizedResponse_wellFormed _ (by decide)
  · intro _ _ h; cases h

/-- What has been recorded of the two responses after these calls: status lines, messages and the number of header
fields. -/
def answersAfter (calls : List Bytes) : List (Option Bytes × Option Bytes × Nat) :=
  (feedResponse sampleEnv (calls.map Chunk.data) twoAsked).txs.map.map fun p =>
    (p.2.responseLine, p.2.responseMessage, p.2.responseHeaders.length)

set_option maxRecDepth 8000 in
/-- Whole responses, each in a call of its own. -/
example : answersAfter [noTrailerResponse.render, sizedResponse.render] =
    [(some (b! "HTTP/1.1 200 OK\r\n"), some (b! "OK"), 1), (some (b! "HTTP/1.1 200 OK\r\n"), some (b! "OK"), 1), (none, none, 0)] := by
  decide_cbv

set_option maxRecDepth 8000 in
/-- What may not be cut (1): the line end of the status line. Here the CR is the last byte of a call and the LF is the
whole next call. The first header line becomes a part of the message, the length is not known, and the second response
is taken for the body of the first. -/
theorem C62_status_line_end_cut : ∃ a b : Bytes,
    a ++ [10] ++ b = sizedResponse.render ∧
    answersAfter [a, [10], b, sizedResponse.render] =
      [(some (b! "HTTP/1.1 200 OK\r\nContent-Length: 2\r\n"), some (b! "OK\r\nContent-Length: 2"), 0), (none, none, 0), (none, none, 0)] :=
  ⟨b! "HTTP/1.1 200 OK\r", b! "Content-Length: 2\r\n\r\nhi", by decide_cbv, by decide_cbv⟩

set_option maxRecDepth 8000 in
/-- What may not be cut (2): a chunk-size line. A call ends after the digit of the first one. The second response is
never recorded. -/
theorem C62_size_line_cut : ∃ a b : Bytes,
    a ++ b = noTrailerResponse.render ∧
    answersAfter [a, b, sizedResponse.render] = [(some (b! "HTTP/1.1 200 OK\r\n"), some (b! "OK"), 1), (none, none, 0), (none, none, 0)] :=
  ⟨b! "HTTP/1.1 200 OK\r\nTransfer-Encoding: chunked\r\n\r\n3", b! "\r\nabc\r\n0\r\n\r\n", by decide_cbv, by decide_cbv⟩

end Props

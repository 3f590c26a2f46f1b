/- C61: requests that arrive in pieces are recovered exactly. -/
import Verif.Lemmas.SegMain

namespace Props
open Model Spec

/-- C61: well-formed requests, delivered in pieces. The pieces may begin and end in the middle of a request line, of
header or trailer lines, of a body or of the data of a chunk; only chunk-size lines, the line end after the data of a
chunk and the empty line after header fields are not cut (`Request.tokens`). Every call answers that it took everything
in. The same callbacks are run as if each request had come whole (C58), except that header and body data may be handed
out in several pieces, which make up the same data. The same transactions are recorded, and the parser is between two
requests again. -/
theorem C61_pieces_partial {e : Env} {s : Conn} (hs : Reachable e s) (hw : Willing e) (hb : BetweenRequests s)
    (requests : List Request) (hr : ∀ r ∈ requests, r.WellFormed)
    (hlimit : ∀ r ∈ requests, r.line.length + 2 ≤ e.cfg.fieldLimit)
    (hfields : ∀ r ∈ requests, ∀ h ∈ r.headers ++ r.body.trailer, h.render.length ≤ e.cfg.fieldLimit)
    (hroom : s.txs.map.length + requests.length ≤ e.cfg.maxTx)
    (pieces : List (List Token)) (hne : ∀ c ∈ pieces, c ≠ []) (hall : pieces.flatten = requests.flatMap Request.tokens) :
    let calls := pieces.map fun c => Chunk.data (bytesOf c)
    let final := feedRequest e calls s
    requestAnswers e calls s = pieces.map (fun _ => .ok (some .data)) ∧
    (∃ evs, final.trace = s.trace ++ evs ∧ Pieces (requestCallbacks s.txs.request requests) evs) ∧
    (∀ i r, requests[i]? = some r →
      ∃ t, final.txs.get (s.txs.request + i) = some t ∧ Records t (s.txs.request + i) r ∧ Unanswered t) ∧
    final.txs.request = s.txs.request + requests.length ∧
    (∀ j, j < s.txs.request → final.txs.get j = s.txs.get j) ∧
    BetweenRequests final := by
  have ho : Occupied s s.txs.map.length := by
    refine ⟨(reachable_bounded hs).1, ?_⟩
    rcases hb.next with h | h
    · exact .inl ⟨h, Nat.le_refl _⟩
    · exact .inr ⟨by rw [h]; rfl, Nat.le_succ _⟩
  have F : Fit e s.txs.map.length requests := ⟨hw, hr, hlimit, hfields, hroom⟩
  have hM : Midway e (.all _ s.trace) s s.txs.map.length requests (pieces.flatten ++ []) s := by
    rw [List.append_nil, hall]
    refine .idle (pre := []) rfl ⟨by simp, fun _ _ => rfl, rfl, rfl, .inl rfl, rfl, hb.beyond, hb.status, ho⟩ hb ⟨rfl, [], ?_, ?_⟩
    · simp [Log.all]
    · exact .nil
  have htok : ∀ c ∈ pieces, ∀ x ∈ c, x.bytes ≠ [] := by
    intro c hc x hx
    have : x ∈ requests.flatMap Request.tokens := by rw [← hall]; exact List.mem_flatten.mpr ⟨c, hc, hx⟩
    obtain ⟨r, hr', hx'⟩ := List.mem_flatMap.mp this
    exact tokens_ne (hr r hr') x hx'
  obtain ⟨h1, h2⟩ := calls_pieces F pieces hne htok hM
  obtain ⟨hu, hbf, tr⟩ := h2.over
  obtain ⟨-, evs, htr, hp⟩ := tr
  rw [Log.all_filter] at htr
  exact ⟨h1, ⟨evs, htr, hp⟩, hu.records, hu.request, hu.others, hbf⟩

/-- The three requests of C58, in tokens. -/
def threeTokens : List Token := threeRequests.flatMap Request.tokens

/-- Case for C61: these three requests, delivered one token at a time. They make 162 calls. -/
example : Willing sampleEnv ∧ BetweenRequests {} ∧ Reachable sampleEnv {} ∧
    (∀ r ∈ threeRequests, r.WellFormed ∧ r.line.length + 2 ≤ sampleEnv.cfg.fieldLimit ∧
      ∀ h ∈ r.headers ++ r.body.trailer, h.render.length ≤ sampleEnv.cfg.fieldLimit) ∧
    (threeTokens.map fun t => [t]).flatten = threeRequests.flatMap Request.tokens ∧ (threeTokens.map fun t => [t]).length = 162 ∧
    ({} : Conn).txs.map.length + threeRequests.length ≤ sampleEnv.cfg.maxTx := by
  refine ⟨⟨fun _ _ => rfl, .inr (by decide), fun f h => by cases h⟩,
    ⟨rfl, rfl, rfl, rfl, .inl rfl, .inl rfl, fun _ _ => rfl⟩, .new,
    fun r hr => ⟨threeRequests_wellFormed r hr, ?_⟩, (List.flatMap_def ..).symm.trans (List.flatMap_singleton' _), by decide +kernel, by decide⟩
  revert r
  decide +kernel

/-- The request lines a parser has recorded, after these calls. -/
def linesAfter (calls : List Bytes) : List (Option Bytes) :=
  (feedRequest sampleEnv (calls.map Chunk.data) {}).txs.map.map fun p => p.2.requestLine

set_option maxRecDepth 8000 in
/-- Whole requests: the lines are there. -/
example : linesAfter [(threeRequests.take 2).flatMap Request.render] =
    [some (b! "GET /a?b=c HTTP/1.1"), some (b! "POST /p HTTP/1.0"), none] := by decide_cbv

set_option maxRecDepth 8000 in
/-- What may not be cut (1): the empty line after the header fields. Two well-formed requests; a call ends between the
CR and the LF of the empty line of the first. The second request is never recorded: it is taken for the body of the
first. -/
theorem C61_empty_line_cut : ∃ a b : Bytes, a ++ b = (threeRequests.take 2).flatMap Request.render ∧
    linesAfter [a, b] = [some (b! "GET /a?b=c HTTP/1.1")] :=
  ⟨b! "GET /a?b=c HTTP/1.1\r\nHost: h\r\n\r", b! "\n" ++ ((threeRequests.take 2).drop 1).flatMap Request.render,
    by decide +kernel, by decide_cbv⟩

set_option maxRecDepth 8000 in
/-- What may not be cut (2): a chunk-size line. A request with a chunked body and another; a call ends after the digit of
the first size line. What was buffered is put in front of every later size line, and the second request is never
recorded. -/
theorem C61_size_line_cut : ∃ a b : Bytes,
    a ++ b = (threeRequests.drop 2 ++ threeRequests.take 1).flatMap Request.render ∧
    linesAfter [a, b] = [some (b! "PUT /q HTTP/1.1")] :=
  ⟨b! "PUT /q HTTP/1.1\r\nTransfer-Encoding: Chunked\r\n\r\n3",
    b! ";x\r\nabc\r\n1\r\nd\r\n0\r\nX: y\r\n\r\nGET /a?b=c HTTP/1.1\r\nHost: h\r\n\r\n", by decide +kernel, by decide_cbv⟩

/-- A request with a body of five chunks. -/
def fiveChunks : Request :=
  { method := b! "POST", uri := b! "/x", protocol := b! "HTTP/1.1"
    headers := [⟨b! "Transfer-Encoding", b! " ", b! "chunked", []⟩]
    body := .chunked (List.replicate 5 ⟨b! "1\r\n", b! "a"⟩) (b! "0\r\n") [] }

theorem fiveChunks_wellFormed : fiveChunks.WellFormed := by
  refine ⟨⟨.post, by decide +kernel⟩, by decide +kernel, ⟨.v1_1, by decide +kernel⟩, by decide +kernel,
    ⟨?_, ?_, ?_, ?_, ?_⟩, by decide +kernel, ?_, ?_⟩
  · exact ⟨⟨b! "Transfer-Encoding", b! " ", b! "chunked", []⟩, by decide +kernel, by decide +kernel⟩
  · exact fun h hh => (by decide +kernel : ∀ h ∈ _, EqNocase h.name _ → EqNocase h.value _) h hh.1 hh.2
  · intro c hc
    rw [List.eq_of_mem_replicate hc]
    exact ⟨⟨b! "1", b! "\r", by decide +kernel, by decide +kernel, by decide +kernel, by decide +kernel, by decide +kernel, by decide +kernel⟩, by decide +kernel, by decide +kernel⟩
  · exact ⟨b! "0", b! "\r", by decide +kernel, by decide +kernel, by decide +kernel, by decide +kernel, by decide +kernel, by decide +kernel⟩
  · decide +kernel
  · exact fun h hh => absurd hh.2 ((by decide +kernel : ∀ h ∈ _, ¬ EqNocase h.name _) h hh.1)
  · exact fun h hh => absurd hh.2 ((by decide +kernel : ∀ h ∈ _, ¬ EqNocase h.name _) h hh.1)

set_option maxRecDepth 8000 in
/-- What may not be cut (3): the line end after the data of a chunk. Here every one of the five is cut between CR and LF.
A request that nobody sent appears between the two that were sent. -/
theorem C61_phantom_request : ∃ calls : List Bytes,
    calls.flatten = (fiveChunks :: threeRequests.take 1).flatMap Request.render ∧
    linesAfter calls = [some (b! "POST /x HTTP/1.1"), some (b! "\r\r\r\r\r0"), some (b! "GET /a?b=c HTTP/1.1"), none] :=
  ⟨[b! "POST /x HTTP/1.1\r\nTransfer-Encoding: chunked\r\n\r\n"] ++ (List.replicate 5 [b! "1\r\na\r", b! "\n"]).flatten ++
    [b! "0\r\n\r\nGET /a?b=c HTTP/1.1\r\nHost: h\r\n\r\n"], by decide +kernel, by decide_cbv⟩

end Props

/-
Properties of message bodies: C35.
-/
import Verif.Lemmas.ConnRespChunked

namespace Props

open Model Spec M

/-! ### C35: chunked bodies

The full claim, "for every way of cutting the encoded stream", is false (see the end of this file): a
chunk-size line that is cut leaves its first part in the parser's buffer for the rest of the body. Cutting
everywhere else is harmless. -/

theorem tokens_nil {w : Want} (h : w.tokens = []) : w = .size [] := by
  cases w with
  | size cs =>
    cases cs with
    | nil => rfl
    | cons c cs => exact absurd h (by simp [Want.tokens, encoded_cons])
  | data d cs => exact absurd h (by simp [Want.tokens])
  | crlf cs => exact absurd h (by simp [Want.tokens])
  | lf cs => exact absurd h (by simp [Want.tokens])

theorem requestChunk_of {e : Env} {s : Conn} {cs : List BodyChunk} {m : Nat}
    (h : AwaitingRequestChunk s (carried cs).length) (hv : ∀ c ∈ cs, c.Valid ∧ c.line.length ≤ m)
    (hroom : s.req.buf.length + (s.req.header.getD []).length + cs.length + m ≤ e.cfg.fieldLimit) :
    ReqChunk e m (.size cs) s :=
  ⟨h.state, h.buf, hroom, hv, h.status, h.receiver, h.tx⟩

/-- C35, as far as it holds. A chunked request body, given to the parser in any pieces that do not cut a
chunk-size line: every call wants more data, and afterwards the callbacks have been given exactly the data of
the chunks, in order, and the next chunk-size line is awaited.

`m` bounds the length of a size line. The field limit must leave room for it and one byte per chunk, because the
CR of a line break that is cut stays in the buffer. -/
theorem C35_request_chunks_partial (e : Env) (hcb : CallbacksOK e) (cs : List BodyChunk) (m : Nat)
    (segs : List (List Token)) (s : Conn)
    (h : AwaitingRequestChunk s (carried cs).length) (hv : ∀ c ∈ cs, c.Valid ∧ c.line.length ≤ m)
    (hroom : s.req.buf.length + (s.req.header.getD []).length + cs.length + m ≤ e.cfg.fieldLimit)
    (hcut : segs.flatten = encoded cs) (hne : ∀ ts ∈ segs, ts ≠ []) :
    let calls := segs.map fun ts => Chunk.data (bytesOf ts)
    (∀ a ∈ requestAnswers e calls s, a = .ok (some .data)) ∧
    delivered .requestBodyData s.txs.request (feedRequest e calls s).trace =
      delivered .requestBodyData s.txs.request s.trace ++ (carried cs).map some ∧
    AwaitingRequestChunk (feedRequest e calls s) 0 := by
  obtain ⟨w', ha, hc, hm, hw⟩ := reqChunk_feed hcb segs (requestChunk_of h hv hroom) (ts' := [])
    (by rw [List.append_nil]; exact hcut) hne
  have := tokens_nil hw
  subst this
  obtain ⟨x, hx, hd⟩ := hm.body
  have hx' : carried cs = x := by simpa [Want.body, carried] using hx
  rw [← hx'] at hd
  exact ⟨ha, hd, hc.fits, hc.buf, hc.status, hc.receiver, hc.tx⟩

/-- C35, as far as it holds: the call in which the body ends, i.e. which brings the size line of the last chunk
(`line`), after the rest of the chunks (`last`) and before anything else (`rest`). After some rounds of the loop,
the callbacks have been given exactly the data of the chunks, and the parser is at the trailer: the next byte to
be read is the one after the last size line. -/
theorem C35_request_end_partial (e : Env) (hcb : CallbacksOK e) (cs : List BodyChunk) (m : Nat)
    (segs : List (List Token)) (last : List Token) (line rest : Bytes) (s : Conn)
    (h : AwaitingRequestChunk s (carried cs).length) (hv : ∀ c ∈ cs, c.Valid ∧ c.line.length ≤ m)
    (hroom : s.req.buf.length + (s.req.header.getD []).length + cs.length + m ≤ e.cfg.fieldLimit)
    (hline : SizeLine line 0) (hm : line.length ≤ m)
    (hcut : segs.flatten ++ last = encoded cs) (hne : ∀ ts ∈ segs, ts ≠ []) :
    let s0 := feedRequest e (segs.map fun ts => Chunk.data (bytesOf ts)) s
    let c := Chunk.data (bytesOf last ++ (line ++ rest))
    ∃ k s1, Rounds (requestStep e) k (requestLoopStart e c s0) s1 ∧ s1.req.state = .headers ∧
      delivered .requestBodyData s.txs.request s1.trace =
        delivered .requestBodyData s.txs.request s.trace ++ (carried cs).map some ∧
      s1.input.asSlice = rest ∧ s1.trace <+: ((Op.request c).after e s0).trace := by
  obtain ⟨w', ha, hc, hmv, hw⟩ := reqChunk_feed hcb segs (requestChunk_of h hv hroom) hcut hne
  obtain ⟨k, s1, hr, hst, hd, hi, ht⟩ := reqChunk_call_last hcb (rest := rest) hc hline hm
  rw [hw] at hr ht
  obtain ⟨x, hx, hd0⟩ := hmv.body
  refine ⟨k, s1, hr, hst, ?_, hi, ht⟩
  rw [hmv.request] at hd
  have hx' : carried cs = x ++ w'.body := hx
  rw [hd, hd0, hx', List.map_append, List.append_assoc]

theorem responseChunk_of {e : Env} {s : Conn} {cs : List BodyChunk} {m : Nat}
    (h : AwaitingResponseChunk s) (hv : ∀ c ∈ cs, c.Valid ∧ c.line.length ≤ m)
    (hroom : s.resp.buf.length + (s.resp.header.getD []).length + cs.length + m ≤ e.cfg.fieldLimit) :
    RespChunk e m (.size cs) s :=
  ⟨h.state, h.buf, hroom, hv, h.status, h.receiver, h.tx⟩

/-- The same for a response. -/
theorem C35_response_chunks_partial (e : Env) (hcb : CallbacksOK e) (cs : List BodyChunk) (m : Nat)
    (segs : List (List Token)) (s : Conn)
    (h : AwaitingResponseChunk s) (hv : ∀ c ∈ cs, c.Valid ∧ c.line.length ≤ m)
    (hroom : s.resp.buf.length + (s.resp.header.getD []).length + cs.length + m ≤ e.cfg.fieldLimit)
    (hcut : segs.flatten = encoded cs) (hne : ∀ ts ∈ segs, ts ≠ []) :
    let calls := segs.map fun ts => Chunk.data (bytesOf ts)
    (∀ a ∈ responseAnswers e calls s, a = .ok (some .data)) ∧
    delivered .responseBodyData s.txs.response (feedResponse e calls s).trace =
      delivered .responseBodyData s.txs.response s.trace ++ (carried cs).map some ∧
    AwaitingResponseChunk (feedResponse e calls s) := by
  obtain ⟨w', ha, hc, hm, hw⟩ := respChunk_feed hcb segs (responseChunk_of h hv hroom) (ts' := [])
    (by rw [List.append_nil]; exact hcut) hne
  have := tokens_nil hw
  subst this
  obtain ⟨x, hx, hd⟩ := hm.body
  have hx' : carried cs = x := by simpa [Want.body, carried] using hx
  rw [← hx'] at hd
  exact ⟨ha, hd, hc.fits, hc.buf, hc.status, hc.receiver, hc.tx⟩

theorem C35_response_end_partial (e : Env) (hcb : CallbacksOK e) (cs : List BodyChunk) (m : Nat)
    (segs : List (List Token)) (last : List Token) (line rest : Bytes) (s : Conn)
    (h : AwaitingResponseChunk s) (hv : ∀ c ∈ cs, c.Valid ∧ c.line.length ≤ m)
    (hroom : s.resp.buf.length + (s.resp.header.getD []).length + cs.length + m ≤ e.cfg.fieldLimit)
    (hline : SizeLine line 0) (hm : line.length ≤ m)
    (hcut : segs.flatten ++ last = encoded cs) (hne : ∀ ts ∈ segs, ts ≠ []) :
    let s0 := feedResponse e (segs.map fun ts => Chunk.data (bytesOf ts)) s
    let c := Chunk.data (bytesOf last ++ (line ++ rest))
    ∃ k s1, Rounds (responseStep e) k (responseLoopStart e c s0) s1 ∧ s1.resp.state = .headers ∧
      delivered .responseBodyData s.txs.response s1.trace =
        delivered .responseBodyData s.txs.response s.trace ++ (carried cs).map some ∧
      s1.input.asSlice = rest ∧ s1.trace <+: ((Op.response c).after e s0).trace := by
  obtain ⟨w', ha, hc, hmv, hw⟩ := respChunk_feed hcb segs (responseChunk_of h hv hroom) hcut hne
  obtain ⟨k, s1, hr, hst, hd, hi, ht⟩ := respChunk_call_last hcb (rest := rest) hc hline hm
  rw [hw] at hr ht
  obtain ⟨x, hx, hd0⟩ := hmv.body
  refine ⟨k, s1, hr, hst, ?_, hi, ht⟩
  rw [hmv.response] at hd
  have hx' : carried cs = x ++ w'.body := hx
  rw [hd, hd0, hx', List.map_append, List.append_assoc]

/-! The hypotheses are met. -/

/-- A connection on which the headers of a chunked request have been received, and one for a response. -/
def chunkedRequest (e : Env) : Conn := Conn.history e
  [.open, .request (.data (b! "POST / HTTP/1.1\r\nTransfer-Encoding: chunked\r\n\r\n"))]
def chunkedResponse (e : Env) : Conn := Conn.history e
  [.open, .request (.data (b! "GET / HTTP/1.1\r\n\r\n")),
    .response (.data (b! "HTTP/1.1 200 OK\r\nTransfer-Encoding: chunked\r\n\r\n"))]

theorem awaitingRequest_of {s : Conn} {n : Nat} (h1 : s.req.state = .bodyChunkedLength) (h2 : s.req.buf = [])
    (h3 : s.req.status = .data) (h4 : s.req.receiver = none)
    (h5 : (s.txs.get s.txs.request).map (fun t => (t.requestProgress, t.requestContentEncodingProcessing,
      t.requestEntityLen)) = some (.body, .none, 0)) (hn : n < 2 ^ 64) : AwaitingRequestChunk s n := by
  obtain ⟨t, ht, h6⟩ := Option.map_eq_some_iff.1 h5
  simp only [Prod.mk.injEq] at h6
  refine ⟨h1, ?_, .inr h3, h4, t, ht, h6.1, h6.2.1, ?_⟩
  · rw [h2]; simp
  · rw [h6.2.2]; omega

theorem awaitingResponse_of {s : Conn} (h1 : s.resp.state = .bodyChunkedLength) (h2 : s.resp.buf = [])
    (h3 : s.resp.status = .data) (h4 : s.resp.receiver = none)
    (h5 : (s.txs.get s.txs.response).map (fun t => (t.responseProgress, t.responseContentEncodingProcessing)) =
      some (.body, .none)) : AwaitingResponseChunk s := by
  obtain ⟨t, ht, h6⟩ := Option.map_eq_some_iff.1 h5
  simp only [Prod.mk.injEq] at h6
  refine ⟨h1, ?_, .inr h3, h4, t, ht, h6.1, h6.2⟩
  rw [h2]; simp

theorem chunkedRequest_awaiting {n : Nat} (hn : n < 2 ^ 64) : AwaitingRequestChunk (chunkedRequest sampleEnv) n := by
  refine awaitingRequest_of ?_ ?_ ?_ ?_ ?_ hn <;> decide_cbv

theorem chunkedResponse_awaiting : AwaitingResponseChunk (chunkedResponse sampleEnv) := by
  refine awaitingResponse_of ?_ ?_ ?_ ?_ ?_ <;> decide_cbv

example : (chunkedRequest sampleEnv).req.header = none ∧ (chunkedResponse sampleEnv).resp.header = none ∧
    sampleEnv.cfg.fieldLimit = 18000 := by
  decide_cbv

example : (⟨b! "5;ext=1\r\n", b! "hello"⟩ : BodyChunk).Valid :=
  ⟨⟨b! "5", b! ";ext=1\r", by decide +kernel⟩, by decide +kernel⟩

example : SizeLine (b! "000\r\n") 0 := ⟨b! "000", b! "\r", by decide +kernel⟩

/-- A cut after the size line, one inside the data, one inside the line break. -/
example : [[.line (b! "5\r\n")], (b! "he").map .byte, (b! "llo\r").map .byte, [.byte 10]].flatten =
    encoded [⟨b! "5\r\n", b! "hello"⟩] := rfl

/-! Where C35 fails. -/

def twoChunks : List BodyChunk := [⟨b! "1\r\n", b! "a"⟩, ⟨b! "1\r\n", b! "b"⟩]

theorem twoChunks_valid : ∀ c ∈ twoChunks, c.Valid := by
  intro c hc
  simp only [twoChunks, List.mem_cons, List.not_mem_nil, or_false] at hc
  rcases hc with rfl | rfl
  · exact ⟨⟨b! "1", b! "\r", by decide +kernel⟩, by decide +kernel⟩
  · exact ⟨⟨b! "1", b! "\r", by decide +kernel⟩, by decide +kernel⟩

set_option maxRecDepth 4000 in
/-- C35 is false without the restriction. The size line of the first chunk is cut after its digit: the second
chunk-size line is then read with that digit in front, as 17, and a line break becomes body data. -/
theorem C35_request_cut_size_line :
    ∃ (e : Env) (s : Conn) (cs : List BodyChunk) (pieces : List Bytes), Reachable e s ∧ CallbacksOK e ∧
      AwaitingRequestChunk s (carried cs).length ∧ (∀ c ∈ cs, c.Valid) ∧ pieces.flatten = bytesOf (encoded cs) ∧
      (∀ p ∈ pieces, p ≠ []) ∧
      delivered .requestBodyData s.txs.request s.trace = [] ∧
      delivered .requestBodyData s.txs.request (feedRequest e (pieces.map .data) s).trace = (b! "ab\r\n").map some ∧
      carried cs = b! "ab" := by
  refine ⟨sampleEnv, chunkedRequest sampleEnv, twoChunks, [b! "1", b! "\r\na\r\n1\r\nb\r\n"], .history _ ?_,
    fun _ _ => rfl, chunkedRequest_awaiting (by decide), twoChunks_valid, rfl, by decide, ?_, ?_, rfl⟩ <;> decide_cbv

set_option maxRecDepth 4000 in
/-- In a response, what is left of the cut line is taken for white space; the data of the chunk is then read as the
rest of the size line. -/
theorem C35_response_cut_size_line :
    ∃ (e : Env) (s : Conn) (cs : List BodyChunk) (pieces : List Bytes), Reachable e s ∧ CallbacksOK e ∧
      AwaitingResponseChunk s ∧ (∀ c ∈ cs, c.Valid) ∧ pieces.flatten = bytesOf (encoded cs) ∧
      (∀ p ∈ pieces, p ≠ []) ∧
      delivered .responseBodyData s.txs.response s.trace = [] ∧
      delivered .responseBodyData s.txs.response (feedResponse e (pieces.map .data) s).trace =
        (b! "1\r\nb\r\n").map some ∧
      carried cs = b! "ab" := by
  refine ⟨sampleEnv, chunkedResponse sampleEnv, twoChunks, [b! "1", b! "\r\na\r\n1\r\nb\r\n"], .history _ ?_,
    fun _ _ => rfl, chunkedResponse_awaiting, twoChunks_valid, rfl, by decide, ?_, ?_, rfl⟩ <;> decide_cbv

/-- The parser with a field limit of twenty bytes. -/
def tightEnv : Env := { sampleEnv with cfg := { sampleEnv.cfg with fieldLimit := 20 } }

set_option maxRecDepth 4000 in
/-- The need for room in the field limit is real: every line break of a request body that is cut between CR and
LF costs a byte of it for the rest of the body. Here the second size line no longer fits and the stream
fails; uncut, it does not. -/
theorem C35_request_cut_line_break :
    ∃ (e : Env) (s : Conn) (pieces : List Bytes), Reachable e s ∧ CallbacksOK e ∧ AwaitingRequestChunk s 2 ∧
      ((Op.request (.data pieces.flatten)).run e s).1 = .ok (some .data) ∧
      (requestAnswers e (pieces.map .data) s).getLast? = some (.ok (some .error)) := by
  refine ⟨tightEnv, chunkedRequest tightEnv,
    [b! "1\r\na\r", b! "\n1;longextension=01\r\nb\r\n"], .history _ ?_, fun _ _ => rfl,
    awaitingRequest_of ?_ ?_ ?_ ?_ ?_ (by decide), ?_, ?_⟩ <;> decide_cbv

end Props

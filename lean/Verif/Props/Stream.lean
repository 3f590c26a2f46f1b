/-
Properties of the streams of a connection parser: C28 to C33, C37 and C38.
-/
import Verif.Lemmas.ConnRun
import Verif.Lemmas.Txs

namespace Props

open Model Spec M

/-! ### C29: empty chunks -/

/-- C29. An empty chunk on a stream that is neither closed, stopped nor failed: the answer is CLOSED, and
only the count of consumed bytes (of this call) is set. -/
theorem C29_request (e : Env) (s : Conn) (c : Chunk) (hc : chunkLength c = 0)
    (h : s.req.status ≠ .closed ∧ s.req.status ≠ .stop ∧ s.req.status ≠ .error) :
    (Op.request c).run e s = (.ok (some .closed), requestOffered c s) := by
  show requestData e c.toPData s = _
  rw [requestData_eq, if_neg h.2.1, if_neg h.2.2, if_pos ⟨(toPData_isEmpty c).2 hc, h.1⟩]
  rfl

theorem C29_response (e : Env) (s : Conn) (c : Chunk) (hc : chunkLength c = 0)
    (h : s.resp.status ≠ .closed ∧ s.resp.status ≠ .stop ∧ s.resp.status ≠ .error) :
    (Op.response c).run e s = (.ok (some .closed), responseOffered c s) := by
  show responseData e c.toPData s = _
  rw [responseData_eq, if_neg h.2.1, if_neg h.2.2, if_pos ⟨(toPData_isEmpty c).2 hc, h.1⟩]
  rfl

/-- A request is half received: an empty chunk is refused on both streams. -/
example : let s := Conn.history sampleEnv [.open, .request (.data (b! "GET / HTTP/1.1\r\nHo"))]
    s.req.status = .data ∧ s.resp.status = .open ∧ s.trace.length = 4 ∧
      ((Op.request (.data [])).run sampleEnv s).1 = .ok (some .closed) ∧
      ((Op.request (.data [])).after sampleEnv s).req.buf = s.req.buf ∧
      ((Op.response (.gap 0)).run sampleEnv s).1 = .ok (some .closed) := by decide_cbv

/-! ### C28: failed and stopped streams -/

/-- C28. A failed stream answers ERROR to every chunk and nothing happens. -/
theorem C28_request_error (e : Env) (s : Conn) (c : Chunk) (h : s.req.status = .error) :
    (Op.request c).run e s = (.ok (some .error), requestOffered c s) := by
  show requestData e c.toPData s = _
  rw [requestData_eq, if_neg (by rw [h]; decide), if_pos h]
  rfl

theorem C28_response_error (e : Env) (s : Conn) (c : Chunk) (h : s.resp.status = .error) :
    (Op.response c).run e s = (.ok (some .error), responseOffered c s) := by
  show responseData e c.toPData s = _
  rw [responseData_eq, if_neg (by rw [h]; decide), if_pos h]
  rfl

/-- C28. A stopped stream answers STOP to every chunk and nothing happens. -/
theorem C28_request_stop (e : Env) (s : Conn) (c : Chunk) (h : s.req.status = .stop) :
    (Op.request c).run e s = (.ok (some .stop), requestOffered c s) := by
  show requestData e c.toPData s = _
  rw [requestData_eq, if_pos h]
  rfl

theorem C28_response_stop (e : Env) (s : Conn) (c : Chunk) (h : s.resp.status = .stop) :
    (Op.response c).run e s = (.ok (some .stop), responseOffered c s) := by
  show responseData e c.toPData s = _
  rw [responseData_eq, if_pos h]
  rfl


/-- What any call does to the status of the two streams. -/
theorem request_status_after (e : Env) (s : Conn) (op : Op) (h : s.req.status = .error) :
    (op.after e s).req.status = .error := by
  unfold Op.after
  have hreq : ∀ c : PData, ∀ s : Conn, s.req.status = .error →
      (requestData e c s).2.req.status = .error := by
    intro c s h
    rw [requestData_eq, if_neg (by rw [h]; decide), if_pos h]
    exact h
  have hresp : ∀ c : PData, ∀ s : Conn, s.req.status = .error →
      (responseData e c s).2.req.status = .error := by
    intro c s h
    rw [responseData_eq]
    split
    · exact h
    split
    · exact h
    split
    · exact h
    split
    · exact h
    · have := (responseProcess_frame e { s with
          resp := { s.resp with bytesConsumed := 0 }, input := c
          responseDataCounter := wrapAdd s.responseDataCounter c.len }).req.status
      rcases this with h1 | h1
      · rw [h1]; exact h
      · exact absurd h h1.1
  have hmark : ∀ h : Half, h.status = .error → h.markClosed.status = .error := by
    intro h hh
    simp [Half.markClosed, hh]
  cases op with
  | «open» =>
    show (openConn s).2.req.status = _
    unfold openConn M.modify
    dsimp only
    rw [if_pos (.inl (by rw [h]; decide))]
    exact h
  | request c => exact hreq _ s h
  | response c => exact hresp _ s h
  | requestClose => exact hreq _ _ (hmark _ h)
  | close =>
    have key : post (closeConn e) s (fun _ s' => s'.req.status = .error) := by
      unfold closeConn
      refine post.bind_modify ?_
      refine post.bind (post.mono (Q := fun _ s' => s'.req.status = .error) (hreq {} _ (hmark _ h))
        fun r s1 h1 => ?_)
      cases r with
      | error x => exact h1
      | ok a =>
        refine post.bind (post.mono (Q := fun _ s' => s'.req.status = .error) (hresp {} _ h1) fun r s2 h2 => ?_)
        cases r with
        | error x => exact h2
        | ok b =>
          refine post.bind_state ?_
          refine post.bind_rel (R := HalvesKept) (by rel_walk) (fun _ s3 k => ?_) fun x s3 k => ?_
          · show s3.req.status = _
            rw [k.1]; exact h2
          · rw [k.1]; exact h2
    have : post (Op.run e .close) s (fun _ s' => s'.req.status = .error) := by
      unfold Op.run
      refine post.bind (key.mono fun r s1 h1 => ?_)
      cases r <;> exact h1
    exact this
  | removeTx i => exact h
  | askRequest => exact h
  | askResponse => exact h

/-- C28. Once the request stream has failed, whatever is called on the parser, every later chunk of requests
is answered with ERROR and nothing happens. -/
theorem C28_request_error_forever (e : Env) (s : Conn) (h : s.req.status = .error) (ops : List Op)
    (c : Chunk) :
    (Op.request c).run e (ops.foldl (Op.after e) s) =
      (.ok (some .error), requestOffered c (ops.foldl (Op.after e) s)) := by
  refine C28_request_error e _ c ?_
  induction ops generalizing s with
  | nil => exact h
  | cons op ops ih => exact ih (op.after e s) (request_status_after e s op h)

/-- How feeding the streams changes a response stream that has failed or stopped. -/
theorem response_status_after (e : Env) (s : Conn) (op : Op) (st : StreamState)
    (hst : st = .error ∨ st = .stop)
    (hop : (∃ c, op = .request c) ∨ ∃ c, op = .response c)
    (h : s.resp.status = st ∨ s.resp.status = .tunnel) :
    (op.after e s).resp.status = st ∨ (op.after e s).resp.status = .tunnel := by
  unfold Op.after
  rcases hop with ⟨c, rfl⟩ | ⟨c, rfl⟩
  · show (requestData e c.toPData s).2.resp.status = _ ∨ (requestData e c.toPData s).2.resp.status = _
    rw [requestData_eq]
    split
    · exact h
    split
    · exact h
    split
    · exact h
    split
    · exact h
    · have hne : s.resp.status ≠ .dataOther := by
        rcases h with h | h <;> rw [h]
        · rcases hst with rfl | rfl <;> decide
        · decide
      have := (requestProcess_frame e { s with
          req := { s.req with bytesConsumed := 0 }, input := c.toPData
          requestChunkCount := s.requestChunkCount + 1
          requestDataCounter := wrapAdd s.requestDataCounter c.toPData.len }).resp
      dsimp only at this
      rw [if_neg hne] at this
      rcases this with h1 | h1
      · rw [h1]; exact h
      · rw [h1]; exact .inr rfl
  · show (responseData e c.toPData s).2.resp.status = _ ∨ (responseData e c.toPData s).2.resp.status = _
    rw [responseData_eq]
    split
    · exact h
    split
    · exact h
    split
    · exact h
    split
    · exact h
    · rcases h with h | h
      · rcases hst with rfl | rfl <;> contradiction
      · contradiction

/-- C28, responses. Once the response stream has failed or stopped, feeding the two streams leaves it so, unless
the request stream switches the connection to a tunnel. Missing for the full statement: it is false, a tunnel
overrides the error (`C28_response_error_forgotten`). -/
theorem C28_response_forever_partial (e : Env) (s : Conn) (st : StreamState) (hst : st = .error ∨ st = .stop)
    (h : s.resp.status = st) (ops : List Op) (hf : Feeds ops)
    (hnt : (ops.foldl (Op.after e) s).resp.status ≠ .tunnel) (c : Chunk) :
    (Op.response c).run e (ops.foldl (Op.after e) s) =
      (.ok (some st), responseOffered c (ops.foldl (Op.after e) s)) := by
  have key : (ops.foldl (Op.after e) s).resp.status = st ∨
      (ops.foldl (Op.after e) s).resp.status = .tunnel := by
    replace h : s.resp.status = st ∨ s.resp.status = .tunnel := .inl h
    clear hnt
    induction ops generalizing s with
    | nil => exact h
    | cons op ops ih =>
      exact ih (op.after e s) (fun o ho => hf o (List.mem_cons_of_mem _ ho))
        (response_status_after e s op st hst (hf op List.mem_cons_self) h)
  have key := key.resolve_right hnt
  rcases hst with rfl | rfl
  · exact C28_response_error e _ c key
  · exact C28_response_stop e _ c key

/-- C28, requests: a stopped request stream stays stopped as long as only requests are fed. Missing: `close`
and responses that switch protocols restart it (`C28_request_stop_forgotten`, `C28_stop_closed`). -/
theorem C28_request_stop_partial (e : Env) (s : Conn) (h : s.req.status = .stop) (cs : List Chunk) (c : Chunk) :
    (Op.request c).run e ((cs.map Op.request).foldl (Op.after e) s) =
      (.ok (some .stop), requestOffered c ((cs.map Op.request).foldl (Op.after e) s)) := by
  refine C28_request_stop e _ c ?_
  induction cs generalizing s with
  | nil => exact h
  | cons c cs ih =>
    refine ih (Op.after e s (.request c)) ?_
    unfold Op.after
    rw [C28_request_stop e s c h]
    exact h

/-- A request stream that failed: the body framing is invalid. -/
example : let s := Conn.history sampleEnv [.open, .request (.data (b! "POST / HTTP/1.1\r\nContent-Length: x\r\n\r\n"))]
    s.req.status = .error ∧ s.trace.length ≠ 0 := by decide_cbv

/-- The response callback that says STOP. -/
example : let s := Conn.history (failingEnv .responseLine .stop) [.open,
      .request (.data (b! "GET / HTTP/1.1\r\n\r\n")), .response (.data (b! "HTTP/1.1 200 OK\r\n\r\n"))];
    s.resp.status = .stop ∧ s.req.status = .data := by decide_cbv

/-- The unconditional property is false for responses. The response to a CONNECT fails (a callback says so);
data of another protocol then turns both streams into a tunnel, the failed one too. -/
theorem C28_response_error_forgotten :
    ∃ (e : Env) (s : Conn) (c c' : Chunk), Reachable e s ∧ s.resp.status = .error ∧
      ((Op.response c').run e ((Op.request c).after e s)).1 = .ok (some .tunnel) := by
  refine ⟨failingEnv .responseHeaders .error,
    Conn.history (failingEnv .responseHeaders .error)
      [.open, .request (.data (b! "CONNECT a:1 HTTP/1.1\r\n\r\n")),
        .response (.data (b! "HTTP/1.1 200 OK\r\n\r\n"))],
    .data [22, 3, 10], .data [1], .history _ ?_, ?_, ?_⟩ <;> decide_cbv

/-- Nor does STOP last on the request stream: a response that switches protocols restarts it as a tunnel. -/
theorem C28_request_stop_forgotten :
    ∃ (e : Env) (s : Conn) (c c' : Chunk), Reachable e s ∧ s.req.status = .stop ∧
      ((Op.request c').run e ((Op.response c).after e s)).1 = .ok (some .tunnel) := by
  refine ⟨failingEnv .requestHeaders .stop,
    Conn.history (failingEnv .requestHeaders .stop)
      [.open, .request (.data (b! "GET / HTTP/1.1\r\n\r\n"))],
    .data (b! "HTTP/1.1 101 Switching\r\n\r\n"), .data [1], .history _ ?_, ?_, ?_⟩ <;> decide_cbv

/-- Closing the connection restarts a stopped stream: the next chunk is processed again, with callbacks. -/
theorem C28_stop_closed :
    ∃ (e : Env) (s : Conn) (c : Chunk), Reachable e s ∧ s.req.status = .stop ∧
      (Op.close.after e s).req.status = .data ∧
      ((Op.request c).after e (Op.close.after e s)).trace ≠ (Op.close.after e s).trace := by
  refine ⟨failingEnv .requestLine .stop,
    Conn.history (failingEnv .requestLine .stop) [.open, .request (.data (b! "GET / HTTP/1.1\r\n\r\n"))],
    .data (b! "A: b\r\n\r\n"), .history _ ?_, ?_, ?_, ?_⟩ <;> decide_cbv

/-! ### C38: tunnels -/

/-- C38. In tunnel mode a chunk is counted, and nothing else happens. -/
theorem C38_request (e : Env) (s : Conn) (c : Chunk) (hc : chunkLength c ≠ 0) (h : s.req.status = .tunnel) :
    (Op.request c).run e s = (.ok (some .tunnel), { requestOffered c s with
      requestChunkCount := s.requestChunkCount + 1
      requestDataCounter := (s.requestDataCounter + chunkLength c) % 2 ^ 64 }) := by
  show requestData e c.toPData s = _
  rw [requestData_eq, if_neg (by rw [h]; decide), if_neg (by rw [h]; decide),
    if_neg (fun hh => hc ((toPData_isEmpty c).1 hh.1)), if_pos h, toPData_len]
  rfl

theorem C38_response (e : Env) (s : Conn) (c : Chunk) (hc : chunkLength c ≠ 0) (h : s.resp.status = .tunnel) :
    (Op.response c).run e s = (.ok (some .tunnel), { responseOffered c s with
      responseDataCounter := (s.responseDataCounter + chunkLength c) % 2 ^ 64 }) := by
  show responseData e c.toPData s = _
  rw [responseData_eq, if_neg (by rw [h]; decide), if_neg (by rw [h]; decide),
    if_neg (fun hh => hc ((toPData_isEmpty c).1 hh.1)), if_pos h, toPData_len]
  rfl

/-- C38. When both streams are tunnels, any feeds leave them tunnels, change no transaction and run no
callback. -/
theorem C38_forever (e : Env) (s : Conn) (h : s.req.status = .tunnel ∧ s.resp.status = .tunnel)
    (ops : List Op) (hf : Feeds ops) :
    let s' := ops.foldl (Op.after e) s
    s'.req.status = .tunnel ∧ s'.resp.status = .tunnel ∧ s'.txs = s.txs ∧ s'.trace = s.trace := by
  induction ops generalizing s with
  | nil => exact ⟨h.1, h.2, rfl, rfl⟩
  | cons op ops ih =>
    have hstep : (op.after e s).req.status = .tunnel ∧ (op.after e s).resp.status = .tunnel ∧
        (op.after e s).txs = s.txs ∧ (op.after e s).trace = s.trace := by
      rcases hf op List.mem_cons_self with ⟨c, rfl⟩ | ⟨c, rfl⟩
      · by_cases hc : chunkLength c = 0
        · rw [Op.after, C29_request e s c hc (by rw [h.1]; decide)]
          exact ⟨h.1, h.2, rfl, rfl⟩
        · rw [Op.after, C38_request e s c hc h.1]
          exact ⟨h.1, h.2, rfl, rfl⟩
      · by_cases hc : chunkLength c = 0
        · rw [Op.after, C29_response e s c hc (by rw [h.2]; decide)]
          exact ⟨h.1, h.2, rfl, rfl⟩
        · rw [Op.after, C38_response e s c hc h.2]
          exact ⟨h.1, h.2, rfl, rfl⟩
    have hrest := ih (op.after e s) ⟨hstep.1, hstep.2.1⟩ (fun o ho => hf o (List.mem_cons_of_mem _ ho))
    exact ⟨hrest.1, hrest.2.1, hrest.2.2.1.trans hstep.2.2.1, hrest.2.2.2.trans hstep.2.2.2⟩

/-- A tunnel: CONNECT, accepted, and then another protocol. -/
example : let s := Conn.history sampleEnv [.open, .request (.data (b! "CONNECT a:1 HTTP/1.1\r\n\r\n")),
      .response (.data (b! "HTTP/1.1 200 OK\r\n\r\n")), .request (.data [22, 3, 10])]
    s.req.status = .tunnel ∧ s.resp.status = .tunnel ∧ s.trace.length ≠ 0 := by decide_cbv

/-! ### C30: the byte counters -/

/-- C30. The counter of request bytes grows by the length of an accepted chunk, a gap included, modulo
2^64; a chunk that is not accepted is not counted; the other counter is left alone. -/
theorem C30_request (e : Env) (s : Conn) (c : Chunk) :
    ((Op.request c).after e s).requestDataCounter =
        (if requestAccepts s c then (s.requestDataCounter + chunkLength c) % 2 ^ 64
         else s.requestDataCounter) ∧
      ((Op.request c).after e s).responseDataCounter = s.responseDataCounter := by
  show (requestData e c.toPData s).2.requestDataCounter = _ ∧
    (requestData e c.toPData s).2.responseDataCounter = _
  rw [requestData_eq]
  split
  next h => exact ⟨by rw [if_neg (fun hh => hh.1 h)], rfl⟩
  next h1 =>
  split
  next h => exact ⟨by rw [if_neg (fun hh => hh.2.1 h)], rfl⟩
  next h2 =>
  split
  next h => exact ⟨by rw [if_neg (fun hh => h.2 (hh.2.2 ((toPData_isEmpty c).1 h.1)))], rfl⟩
  next h3 =>
  have hacc : requestAccepts s c := by
    refine ⟨h1, h2, fun hc => ?_⟩
    cases hs : decide (s.req.status = .closed) with
    | true => exact of_decide_eq_true hs
    | false => exact absurd ⟨(toPData_isEmpty c).2 hc, of_decide_eq_false hs⟩ h3
  rw [if_pos hacc, toPData_len]
  split
  · exact ⟨rfl, rfl⟩
  · have := requestProcess_frame e { s with
          req := { s.req with bytesConsumed := 0 }, input := c.toPData
          requestChunkCount := s.requestChunkCount + 1
          requestDataCounter := wrapAdd s.requestDataCounter (chunkLength c) }
    exact ⟨this.counter, this.counter'⟩

theorem C30_response (e : Env) (s : Conn) (c : Chunk) :
    ((Op.response c).after e s).responseDataCounter =
        (if responseAccepts s c then (s.responseDataCounter + chunkLength c) % 2 ^ 64
         else s.responseDataCounter) ∧
      ((Op.response c).after e s).requestDataCounter = s.requestDataCounter := by
  show (responseData e c.toPData s).2.responseDataCounter = _ ∧
    (responseData e c.toPData s).2.requestDataCounter = _
  rw [responseData_eq]
  split
  next h => exact ⟨by rw [if_neg (fun hh => hh.1 h)], rfl⟩
  next h1 =>
  split
  next h => exact ⟨by rw [if_neg (fun hh => hh.2.1 h)], rfl⟩
  next h2 =>
  split
  next h => exact ⟨by rw [if_neg (fun hh => h.2 (hh.2.2 ((toPData_isEmpty c).1 h.1)))], rfl⟩
  next h3 =>
  have hacc : responseAccepts s c := by
    refine ⟨h1, h2, fun hc => ?_⟩
    cases hs : decide (s.resp.status = .closed) with
    | true => exact of_decide_eq_true hs
    | false => exact absurd ⟨(toPData_isEmpty c).2 hc, of_decide_eq_false hs⟩ h3
  rw [if_pos hacc, toPData_len]
  split
  · exact ⟨rfl, rfl⟩
  · have := responseProcess_frame e { s with
          resp := { s.resp with bytesConsumed := 0 }, input := c.toPData
          responseDataCounter := wrapAdd s.responseDataCounter (chunkLength c) }
    exact ⟨this.counter', this.counter⟩

/-- The bytes of the request (response) chunks accepted during a sequence of feeds. -/
def acceptedRequestBytes (e : Env) : Conn → List Op → Nat
  | _, [] => 0
  | s, .request c :: ops =>
    (if requestAccepts s c then chunkLength c else 0) + acceptedRequestBytes e ((Op.request c).after e s) ops
  | s, op :: ops => acceptedRequestBytes e (op.after e s) ops

/-- C30. After any sequence of feeds, the counter is the sum of the lengths of the accepted chunks, modulo
2^64. -/
theorem C30_request_total (e : Env) (s : Conn) (ops : List Op) (hf : Feeds ops)
    (h0 : s.requestDataCounter < 2 ^ 64) :
    (ops.foldl (Op.after e) s).requestDataCounter =
      (s.requestDataCounter + acceptedRequestBytes e s ops) % 2 ^ 64 := by
  induction ops generalizing s with
  | nil => exact (Nat.mod_eq_of_lt h0).symm
  | cons op ops ih =>
    have hf' : Feeds ops := fun o ho => hf o (List.mem_cons_of_mem _ ho)
    rcases hf op List.mem_cons_self with ⟨c, rfl⟩ | ⟨c, rfl⟩
    · have h1 := (C30_request e s c).1
      have hlt : ((Op.request c).after e s).requestDataCounter < 2 ^ 64 := by
        rw [h1]
        split
        · exact Nat.mod_lt _ (by decide)
        · exact h0
      rw [List.foldl_cons, ih _ hf' hlt, h1, acceptedRequestBytes]
      split
      · rw [Nat.mod_add_mod, Nat.add_assoc]
      · rw [Nat.zero_add]
    · have h1 := (C30_response e s c).2
      rw [List.foldl_cons, ih _ hf' (by rw [h1]; exact h0), h1, acceptedRequestBytes]
      intro c' hc'
      cases hc'

/-- Data, a gap, a refused empty chunk. -/
example : let ops : List Op := [.request (.data (b! "POST / HTTP/1.1\r\nContent-Length: 9\r\n\r\nabc")),
      .request (.gap 5), .request (.data []), .response (.data (b! "HTTP/1.1"))]
    Feeds ops ∧ (ops.foldl (Op.after sampleEnv) (Conn.history sampleEnv [.open])).requestDataCounter = 46 := by
  constructor
  · intro op h
    simp only [List.mem_cons, List.not_mem_nil, or_false] at h
    rcases h with rfl | rfl | rfl | rfl <;> simp
  · decide_cbv

/-! ### C31: the count of consumed bytes -/

/-- C31. After any history, feeding a chunk reports at most its length as consumed. -/
theorem C31_request (e : Env) (s : Conn) (h : Reachable e s) (c : Chunk) :
    ((Op.request c).after e s).req.bytesConsumed ≤ chunkLength c := by
  have hb := boundary_of_reachable h
  obtain ⟨hok, ht, _⟩ := requestData_done e c.toPData s (fresh_chunk c hb.reqOpen) hb.reqBuf
  show (requestData e c.toPData s).2.req.bytesConsumed ≤ _
  rw [hok.consumed, ← toPData_total, ← ht]
  exact hok.inside

theorem C31_response (e : Env) (s : Conn) (h : Reachable e s) (c : Chunk) :
    ((Op.response c).after e s).resp.bytesConsumed ≤ chunkLength c := by
  have hb := boundary_of_reachable h
  obtain ⟨hok, ht, _⟩ := responseData_done e c.toPData s (fresh_chunk c hb.respOpen) hb.respBuf
  show (responseData e c.toPData s).2.resp.bytesConsumed ≤ _
  rw [hok.consumed, ← toPData_total, ← ht]
  exact hok.inside

/-- A chunk that is only partly consumed: the rest waits for the response. -/
example : let s := Conn.history sampleEnv [.open]
    let c := Chunk.data (b! "CONNECT a:1 HTTP/1.1\r\n\r\nabc")
    allReturn sampleEnv {} [.open] = true ∧
      ((Op.request c).run sampleEnv s).1 = .ok (some .dataOther) ∧
      ((Op.request c).after sampleEnv s).req.bytesConsumed = 24 ∧ chunkLength c = 27 := by decide_cbv

/-! ### C32: termination -/

/-- The loop of the model (which is given a number of rounds) is the loop of the program: it ends with
`out` when a round after some rounds does. -/
theorem C32_loop (e : Env) (n : Nat) (s : Conn) (out : Except Err (Option StreamState) × Conn)
    (hout : out.1 ≠ .ok none) :
    requestLoop e n s = out ↔ ∃ k s', k < n ∧ Rounds (requestStep e) k s s' ∧ requestStep e s' = out := by
  induction n generalizing s with
  | zero =>
    constructor
    · rintro rfl
      exact absurd rfl hout
    · rintro ⟨k, _, hk, _⟩
      omega
  | succ n ih =>
    have hstep : requestLoop e (n + 1) s = match requestStep e s with
        | (.ok none, s') => requestLoop e n s'
        | out => out := by
      rw [requestLoop.eq_2]
      cases hs : requestStep e s with
      | mk r s' =>
        cases r with
        | error x => exact M.bind_error hs
        | ok o => rw [M.bind_ok hs]; cases o <;> rfl
    rw [hstep]
    cases hs : requestStep e s with
    | mk r s' =>
      have hdone : r ≠ .ok none → ((r, s') = out ↔
          ∃ k s'', k < n + 1 ∧ Rounds (requestStep e) k s s'' ∧ requestStep e s'' = out) := by
        intro hr
        constructor
        · rintro rfl
          exact ⟨0, s, by omega, .zero s, hs⟩
        · rintro ⟨k, s'', _, hrounds, hlast⟩
          cases hrounds with
          | zero => rw [hs] at hlast; exact hlast
          | next hn _ =>
            rw [hs] at hn
            exact absurd (congrArg Prod.fst hn) hr
      cases r with
      | error x => exact hdone (by simp)
      | ok o =>
        cases o with
        | some st => exact hdone (by simp)
        | none =>
          show requestLoop e n s' = out ↔ _
          rw [ih s']
          constructor
          · rintro ⟨k, s'', hk, hrounds, hlast⟩
            exact ⟨k + 1, s'', by omega, .next hs hrounds, hlast⟩
          · rintro ⟨k, s'', hk, hrounds, hlast⟩
            cases hrounds with
            | zero =>
              rw [hs] at hlast
              exact absurd (congrArg Prod.fst hlast.symm) hout
            | next hn hrest =>
              rw [hs] at hn
              cases hn
              exact ⟨_, s'', by omega, hrest, hlast⟩

/-- C32. After any history, feeding a chunk of requests returns a stream state (or panics, see C55):
the loop ends. -/
theorem C32_request (e : Env) (s : Conn) (h : Reachable e s) (c : Chunk) :
    (∃ st, ((Op.request c).run e s).1 = .ok (some st)) ∨ ((Op.request c).run e s).1 = .error .panic := by
  have hb := boundary_of_reachable h
  obtain ⟨_, _, h1, h2, _⟩ := requestData_done e c.toPData s (fresh_chunk c hb.reqOpen) hb.reqBuf
  show (∃ st, (requestData e c.toPData s).1 = .ok (some st)) ∨ (requestData e c.toPData s).1 = .error .panic
  generalize (requestData e c.toPData s).1 = r at h1 h2
  cases r with
  | error x =>
    cases x with
    | panic => exact .inr rfl
    | status x => exact absurd rfl (h2 x)
  | ok o =>
    cases o with
    | some st => exact .inl ⟨st, rfl⟩
    | none => exact absurd rfl h1

theorem C32_response (e : Env) (s : Conn) (h : Reachable e s) (c : Chunk) :
    (∃ st, ((Op.response c).run e s).1 = .ok (some st)) ∨ ((Op.response c).run e s).1 = .error .panic := by
  have hb := boundary_of_reachable h
  obtain ⟨_, _, h1, h2, _⟩ := responseData_done e c.toPData s (fresh_chunk c hb.respOpen) hb.respBuf
  show (∃ st, (responseData e c.toPData s).1 = .ok (some st)) ∨ (responseData e c.toPData s).1 = .error .panic
  generalize (responseData e c.toPData s).1 = r at h1 h2
  cases r with
  | error x =>
    cases x with
    | panic => exact .inr rfl
    | status x => exact absurd rfl (h2 x)
  | ok o =>
    cases o with
    | some st => exact .inl ⟨st, rfl⟩
    | none => exact absurd rfl h1

theorem requestLoopStart_ok (e : Env) (s : Conn) (h : Reachable e s) (c : Chunk) :
    ReqOK e (requestLoopStart e c s) ∧
      ((requestLoopStart e c s).input.len = chunkLength c ∧
        (requestLoopStart e c s).req.buf = s.req.buf) := by
  have hb := boundary_of_reachable h
  unfold requestLoopStart
  generalize hs1 : ({ requestOffered c s with
    requestChunkCount := s.requestChunkCount + 1
    requestDataCounter := wrapAdd s.requestDataCounter (chunkLength c)
    resp := if s.resp.status = .dataOther then { s.resp with status := .data } else s.resp } : Conn) = s1
  have h1 : ReqOK e s1 := by
    subst hs1
    exact ⟨toPData_wf c, (toPData_position c).symm,
      by show c.toPData.position ≤ _; rw [toPData_position]; exact Nat.zero_le _,
      fun hc => absurd hc hb.reqOpen, hb.reqBuf⟩
  have hlen : s1.input.len = chunkLength c := by
    subst hs1
    exact toPData_len c
  have hbuf : s1.req.buf = s.req.buf := by
    subst hs1
    rfl
  refine ⟨(requestEarly_round e s1 h1).1, ?_⟩
  have k := requestEarly_kept e s1
  exact ⟨k.len.trans hlen, k.buf.trans hbuf⟩

theorem responseLoopStart_ok (e : Env) (s : Conn) (h : Reachable e s) (c : Chunk) :
    RespOK e (responseLoopStart e c s) ∧
      ((responseLoopStart e c s).input.len = chunkLength c ∧
        (responseLoopStart e c s).resp.buf = s.resp.buf) := by
  have hb := boundary_of_reachable h
  unfold responseLoopStart
  generalize hs1 : ({ responseOffered c s with
    responseDataCounter := wrapAdd s.responseDataCounter (chunkLength c) } : Conn) = s1
  have h1 : RespOK e s1 := by
    subst hs1
    exact ⟨toPData_wf c, (toPData_position c).symm,
      by show c.toPData.position ≤ _; rw [toPData_position]; exact Nat.zero_le _,
      fun hc => absurd hc hb.respOpen, hb.respBuf⟩
  have hlen : s1.input.len = chunkLength c := by
    subst hs1
    exact toPData_len c
  have hbuf : s1.resp.buf = s.resp.buf := by
    subst hs1
    rfl
  refine ⟨(responseEarly_round e s1 h1).1, ?_⟩
  have k := responseEarly_kept e s1
  exact ⟨k.len.trans hlen, k.buf.trans hbuf⟩

theorem request_rounds (e : Env) {k : Nat} {s s' : Conn} (hr : Rounds (requestStep e) k s s') (h : ReqOK e s) :
    ReqOK e s' ∧ k + reqMeasure s' ≤ reqMeasure s := by
  induction hr with
  | zero s => exact ⟨h, by omega⟩
  | @next k s s1 s2 hs _ ih =>
    have := requestStep_round e s h
    unfold post at this
    rw [hs] at this
    have h2 := ih this.ok
    have h3 : reqMeasure s1 < reqMeasure s := this.less rfl
    exact ⟨h2.1, by omega⟩

theorem response_rounds (e : Env) {k : Nat} {s s' : Conn} (hr : Rounds (responseStep e) k s s')
    (h : RespOK e s) : RespOK e s' ∧ k + respMeasure s' ≤ respMeasure s := by
  induction hr with
  | zero s => exact ⟨h, by omega⟩
  | @next k s s1 s2 hs _ ih =>
    have := responseStep_round e s h
    unfold post at this
    rw [hs] at this
    have h2 := ih this.ok
    have h3 : respMeasure s1 < respMeasure s := this.less rfl
    exact ⟨h2.1, by omega⟩

/-- C32. The number of rounds is bounded linearly in the bytes fed and the bytes buffered. -/
theorem C32_request_bound (e : Env) (s : Conn) (h : Reachable e s) (c : Chunk) (k : Nat) (s' : Conn)
    (hr : Rounds (requestStep e) k (requestLoopStart e c s) s') :
    k ≤ 16 * (chunkLength c + 2 * s.req.buf.length + 2) := by
  obtain ⟨h1, h2, h3⟩ := requestLoopStart_ok e s h c
  have := (request_rounds e hr h1).2
  have hm := reqMeasure_lt_rounds (requestLoopStart e c s)
  unfold requestRounds at hm
  rw [h2, h3] at hm
  omega

theorem C32_response_bound (e : Env) (s : Conn) (h : Reachable e s) (c : Chunk) (k : Nat) (s' : Conn)
    (hr : Rounds (responseStep e) k (responseLoopStart e c s) s') :
    k ≤ 16 * (chunkLength c + 2 * s.resp.buf.length + 2) := by
  obtain ⟨h1, h2, h3⟩ := responseLoopStart_ok e s h c
  have := (response_rounds e hr h1).2
  have hm := respMeasure_lt_rounds (responseLoopStart e c s)
  unfold responseRounds at hm
  rw [h2, h3] at hm
  omega

/-- C32. Closing ends, too. -/
theorem C32_close (e : Env) (s : Conn) (h : Reachable e s) :
    ((∃ st, (Op.requestClose.run e s).1 = .ok (some st)) ∨ (Op.requestClose.run e s).1 = .error .panic) ∧
    ((∃ a b, (closeConn e s).1 = .ok (some a, some b)) ∨ (closeConn e s).1 = .error .panic) := by
  have hb := boundary_of_reachable h
  have hreq : ∀ s : Conn, s.req.buffered ≤ e.cfg.fieldLimit →
      (∃ st, (requestData e {} s).1 = .ok (some st)) ∨ (requestData e {} s).1 = .error .panic := by
    intro s hb
    obtain ⟨_, _, h1, h2, _⟩ := requestData_done e {} s (fresh_empty _) hb
    generalize (requestData e {} s).1 = r at h1 h2
    cases r with
    | error x =>
      cases x with
      | panic => exact .inr rfl
      | status x => exact absurd rfl (h2 x)
    | ok o =>
      cases o with
      | some st => exact .inl ⟨st, rfl⟩
      | none => exact absurd rfl h1
  have hresp : ∀ s : Conn, s.resp.buffered ≤ e.cfg.fieldLimit →
      (∃ st, (responseData e {} s).1 = .ok (some st)) ∨ (responseData e {} s).1 = .error .panic := by
    intro s hb
    obtain ⟨_, _, h1, h2, _⟩ := responseData_done e {} s (fresh_empty _) hb
    generalize (responseData e {} s).1 = r at h1 h2
    cases r with
    | error x =>
      cases x with
      | panic => exact .inr rfl
      | status x => exact absurd rfl (h2 x)
    | ok o =>
      cases o with
      | some st => exact .inl ⟨st, rfl⟩
      | none => exact absurd rfl h1
  refine ⟨hreq { s with req := s.req.markClosed } hb.reqBuf, ?_⟩
  have key : post (closeConn e) s (fun r _ => (∃ a b, r = .ok (some a, some b)) ∨ r = .error .panic) := by
    unfold closeConn
    refine post.bind_modify ?_
    generalize hs0 : ({ s with req := s.req.markClosed, resp := s.resp.markClosed } : Conn) = s0
    have hb0 : s0.req.buffered ≤ e.cfg.fieldLimit ∧ s0.resp.buffered ≤ e.cfg.fieldLimit := by
      subst hs0
      exact ⟨hb.1, hb.2⟩
    have hreq0 : post (requestData e {}) s0 (fun r _ => (∃ st, r = .ok (some st)) ∨ r = .error .panic) :=
      hreq s0 hb0.1
    refine post.bind ((hreq0.conj (requestData_boundary e {} s0 (fresh_empty _) hb0.1 hb0.2)).mono
      fun r s1 hd => ?_)
    obtain ⟨⟨a, rfl⟩ | rfl, hd1⟩ := hd
    rotate_left
    · exact .inr rfl
    have hresp1 : post (responseData e {}) s1 (fun r _ => (∃ st, r = .ok (some st)) ∨ r = .error .panic) :=
      hresp s1 hd1.2.1
    refine post.bind (hresp1.mono fun r s2 hd => ?_)
    obtain ⟨b, rfl⟩ | rfl := hd
    rotate_left
    · exact .inr rfl
    refine post.bind_state ?_
    refine post.bind ((flush_result e s2.txs.incomplete s2).mono fun r s3 hd => ?_)
    rcases hd with rfl | rfl
    · exact .inl ⟨a, b, rfl⟩
    · exact .inr rfl
  exact key

set_option maxRecDepth 4000 in
/-- Two pipelined requests in one chunk. -/
example : let s := Conn.history sampleEnv [.open]
    let c := Chunk.data (b! "GET / HTTP/1.1\r\n\r\nGET /a HTTP/1.1\r\n\r\n")
    allReturn sampleEnv {} [.open] = true ∧ ((Op.request c).run sampleEnv s).1 = .ok (some .data) ∧
      ((Op.request c).after sampleEnv s).txs.request = 2 := by decide_cbv

/-! ### C33: buffering -/

/-- C33. After any history, what is kept of an incomplete line or header is at most `field_limit` bytes. -/
theorem C33_bounded (e : Env) (s : Conn) (h : Reachable e s) :
    requestBuffered s ≤ e.cfg.fieldLimit ∧ responseBuffered s ≤ e.cfg.fieldLimit :=
  ⟨(boundary_of_reachable h).reqBuf, (boundary_of_reachable h).respBuf⟩

/-- C33. The same after every round of the loop while a chunk is processed. -/
theorem C33_request_rounds (e : Env) (s : Conn) (h : Reachable e s) (c : Chunk) (k : Nat) (s' : Conn)
    (hr : Rounds (requestStep e) k (requestLoopStart e c s) s') :
    requestBuffered s' ≤ e.cfg.fieldLimit ∧ requestBuffered (requestStep e s').2 ≤ e.cfg.fieldLimit := by
  have := (request_rounds e hr (requestLoopStart_ok e s h c).1).1
  exact ⟨this.buffered, (requestStep_round e s' this).ok.buffered⟩

theorem C33_response_rounds (e : Env) (s : Conn) (h : Reachable e s) (c : Chunk) (k : Nat) (s' : Conn)
    (hr : Rounds (responseStep e) k (responseLoopStart e c s) s') :
    responseBuffered s' ≤ e.cfg.fieldLimit ∧ responseBuffered (responseStep e s').2 ≤ e.cfg.fieldLimit := by
  have := (response_rounds e hr (responseLoopStart_ok e s h c).1).1
  exact ⟨this.buffered, (responseStep_round e s' this).ok.buffered⟩


theorem takeTillS_none (p : UInt8 → Bool) (b : Bytes) (h : ∀ c ∈ b, p c = false) :
    Nom.takeTillS p b = .incomplete := by
  have h1 : b.dropWhile (fun c => !p c) = [] := by
    induction b with
    | nil => rfl
    | cons c b ih =>
      have hc : (!p c) = true := by rw [h c (by simp)]; rfl
      rw [List.dropWhile_cons_of_pos (by exact hc)]
      exact ih fun d hd => h d (by simp [hd])
  simp [Nom.takeTillS, Nom.takeWhileS, h1]

/-- C33. A line that would grow past the limit fails the stream instead: the request line, for a chunk
without a line feed. -/
theorem C33_request_overflow (e : Env) (s : Conn) (b : Bytes) (hb : b ≠ [])
    (hst : s.req.status = .open ∨ s.req.status = .data) (hline : s.req.state = .line) (hlf : 10 ∉ b)
    (hover : requestBuffered s + b.length > e.cfg.fieldLimit) :
    ((Op.request (.data b)).run e s).1 = .ok (some .error) ∧
      ((Op.request (.data b)).after e s).req.status = .error := by
  have key : (Op.request (.data b)).run e s = (.ok (some .error),
      { requestFed b s with req := { (requestFed b s).req with status := .error } }) := by
    show requestData e (.ofBytes b) s = _
    rw [requestData_data hb (by rcases hst with h | h <;> rw [h] <;> decide)
      (by rcases hst with h | h <;> rw [h] <;> decide) (by rcases hst with h | h <;> rw [h] <;> decide)]
    refine requestLoop_some (by omega) (requestStep_error rfl ?_)
    rw [handleRequestState_line (by exact hline)]
    unfold requestLine
    rw [M.bind_state]
    have hslice : (requestFed b s).input.asSlice = b := by simp [requestFed, PData.ofBytes, PData.asSlice]
    have hinc : takeTillLf b = .incomplete := by
      unfold takeTillLf takeTillIncl
      rw [takeTillS_none _ b (by intro c hc; simp; rintro rfl; exact hlf hc)]
    rw [hslice, hinc]
    show (if s.req.status = .closed then _ else handleRequestAbsentLf e : M Unit) _ = _
    rw [if_neg (by rcases hst with h | h <;> rw [h] <;> decide)]
    unfold handleRequestAbsentLf
    rw [M.bind_state]
    refine M.bind_error ?_
    unfold checkRequestBufferLimit
    rw [M.bind_state]
    have hlen : (requestFed b s).input.len = b.length := toPData_len (.data b)
    rw [hlen, if_pos ⟨by simpa using hb, hover⟩]
    rfl
  rw [Op.after, key]
  exact ⟨rfl, rfl⟩

/-- C33. The same for the status line, for a chunk without a line feed or a carriage return. -/
theorem C33_response_overflow (e : Env) (s : Conn) (b : Bytes) (hb : b ≠ [])
    (hst : s.resp.status = .open ∨ s.resp.status = .data) (hline : s.resp.state = .line)
    (hlf : 10 ∉ b) (hcr : 13 ∉ b) (hover : responseBuffered s + b.length > e.cfg.fieldLimit) :
    ((Op.response (.data b)).run e s).1 = .ok (some .error) ∧
      ((Op.response (.data b)).after e s).resp.status = .error := by
  have key : (Op.response (.data b)).run e s = (.ok (some .error),
      { responseFed b s with resp := { (responseFed b s).resp with status := .error } }) := by
    show responseData e (.ofBytes b) s = _
    rw [responseData_data hb (by rcases hst with h | h <;> rw [h] <;> decide)
      (by rcases hst with h | h <;> rw [h] <;> decide) (by rcases hst with h | h <;> rw [h] <;> decide)]
    refine responseLoop_some (by omega) (responseStep_error rfl ?_)
    rw [handleResponseState_line (by exact hline)]
    unfold responseLine
    rw [M.bind_state]
    have hslice : (responseFed b s).input.asSlice = b := by simp [responseFed, PData.ofBytes, PData.asSlice]
    have hinc : takeTillEol b = .incomplete := by
      unfold takeTillEol Nom.pair Nom.bind
      rw [takeTillS_none _ b (by
        intro c hc
        have h1 : c ≠ 10 := fun h => hlf (h ▸ hc)
        have h2 : c ≠ 13 := fun h => hcr (h ▸ hc)
        simp [h1, h2])]
    rw [hslice, hinc]
    show (if s.resp.status = .closed then _ else handleResponseAbsentLf e : M Unit) _ = _
    rw [if_neg (by rcases hst with h | h <;> rw [h] <;> decide)]
    unfold handleResponseAbsentLf
    rw [M.bind_state]
    refine M.bind_error ?_
    unfold checkResponseBufferLimit
    rw [M.bind_state]
    have hlen : (responseFed b s).input.len = b.length := toPData_len (.data b)
    rw [hlen, if_pos ⟨by simpa using hb, hover⟩]
    rfl
  rw [Op.after, key]
  exact ⟨rfl, rfl⟩

/-- A limit of ten bytes, and lines that reach it. -/
def tinyEnv : Env := { sampleEnv with cfg := { sampleEnv.cfg with fieldLimit := 10 } }

example : let s := Conn.history tinyEnv [.open, .request (.data (b! "GET /aaaa"))]
    s.req.status = .data ∧ s.req.state = .line ∧ 10 ∉ b! "bc" ∧ requestBuffered s + 2 > tinyEnv.cfg.fieldLimit ∧
      requestBuffered s ≤ tinyEnv.cfg.fieldLimit := by decide_cbv

example : let s := Conn.history tinyEnv [.open, .request (.data (b! "G / HTTP/1.1\r\n\r\n")),
      .response (.data (b! "HTTP/1.1 "))]
    s.resp.status = .data ∧ s.resp.state = .line ∧ responseBuffered s + 2 > tinyEnv.cfg.fieldLimit := by
  decide_cbv

/-! ### C37: gaps -/

/-- C37. A round of the request loop on a gap, in a state other than those in which only the amount of data
matters: the answer is CLOSED, and nothing at all happens. -/
theorem C37_request_refused (e : Env) (s : Conn) (hg : s.input.isGap = true)
    (hs : s.req.state ≠ .bodyIdentity ∧ s.req.state ≠ .ignoreDataAfterHttp09 ∧ s.req.state ≠ .finalize) :
    requestStep e s = (.ok (some .closed), s) := by
  have : (s.input.isGap && !requestGapState s.req.state) = true := by
    rw [hg]
    simp [requestGapState, hs.1, hs.2.1, hs.2.2]
  unfold requestStep
  show (if (s.input.isGap && !requestGapState s.req.state) = true then _ else _ : M (Option StreamState)) s = _
  rw [if_pos this]
  rfl

theorem C37_response_refused (e : Env) (s : Conn) (hg : s.input.isGap = true)
    (hs : s.resp.state ≠ .bodyIdentityClKnown ∧ s.resp.state ≠ .bodyIdentityStreamClose ∧
      s.resp.state ≠ .finalize) :
    responseStep e s = (.ok (some .closed), s) := by
  have : (s.input.isGap && !responseGapState s.resp.state) = true := by
    rw [hg]
    simp [responseGapState, hs.1, hs.2.1, hs.2.2]
  unfold responseStep
  show (if (s.input.isGap && !responseGapState s.resp.state) = true then _ else _ : M (Option StreamState)) s = _
  rw [if_pos this]
  rfl

theorem requestData_gap {e : Env} {s : Conn} {n : Nat} (hn : n ≠ 0)
    (hst : s.req.status ≠ .stop ∧ s.req.status ≠ .error ∧ s.req.status ≠ .tunnel) :
    (Op.request (.gap n)).run e s = requestProcess e { requestOffered (.gap n) s with
      requestChunkCount := s.requestChunkCount + 1
      requestDataCounter := wrapAdd s.requestDataCounter n } := by
  have hlen : (Chunk.gap n).toPData.len = n := toPData_len (.gap n)
  show requestData e (Chunk.gap n).toPData s = _
  rw [requestData_eq, if_neg hst.1, if_neg hst.2.1,
    if_neg (by rw [PData.isEmpty, hlen]; simp [hn]), if_neg hst.2.2, hlen]
  rfl

theorem responseData_gap {e : Env} {s : Conn} {n : Nat} (hn : n ≠ 0)
    (hst : s.resp.status ≠ .stop ∧ s.resp.status ≠ .error ∧ s.resp.status ≠ .tunnel) :
    (Op.response (.gap n)).run e s = responseProcess e { responseOffered (.gap n) s with
      responseDataCounter := wrapAdd s.responseDataCounter n } := by
  have hlen : (Chunk.gap n).toPData.len = n := toPData_len (.gap n)
  show responseData e (Chunk.gap n).toPData s = _
  rw [responseData_eq, if_neg hst.1, if_neg hst.2.1,
    if_neg (by rw [PData.isEmpty, hlen]; simp [hn]), if_neg hst.2.2, hlen]
  rfl

/-- C37. A gap fed in any other state: the answer is CLOSED or ERROR, no callback runs, the position in the
message, what is buffered and what is left of a body stay as they were, and no other transaction than the
current one is touched. -/
theorem C37_request_call (e : Env) (s : Conn) (n : Nat) (hn : n ≠ 0)
    (hst : s.req.status ≠ .stop ∧ s.req.status ≠ .error ∧ s.req.status ≠ .tunnel)
    (hs : s.req.state ≠ .bodyIdentity ∧ s.req.state ≠ .ignoreDataAfterHttp09 ∧ s.req.state ≠ .finalize) :
    (((Op.request (.gap n)).run e s).1 = .ok (some .closed) ∨
      ((Op.request (.gap n)).run e s).1 = .ok (some .error)) ∧
    ((Op.request (.gap n)).after e s).trace = s.trace ∧
    (∃ st, ((Op.request (.gap n)).after e s).req = { s.req with status := st, bytesConsumed := 0 }) ∧
    (∀ k, k ≠ s.txs.request → ((Op.request (.gap n)).after e s).txs.get k = s.txs.get k) := by
  unfold Op.after
  rw [requestData_gap hn hst, requestProcess_gap (by rfl)]
  generalize hs1 : ({ requestOffered (.gap n) s with
    requestChunkCount := s.requestChunkCount + 1
    requestDataCounter := wrapAdd s.requestDataCounter n } : Conn) = s1
  have hreq : s1.req = { s.req with bytesConsumed := 0 } := by subst hs1; rfl
  have htr : s1.trace = s.trace := by subst hs1; rfl
  have htx : s1.txs = s.txs := by subst hs1; rfl
  have hgap : s1.input.isGap = true := by subst hs1; rfl
  generalize hs2 : ({ s1 with resp := if s1.resp.status = .dataOther then { s1.resp with status := .data }
    else s1.resp } : Conn) = s2
  have hreq2 : s2.req = { s.req with bytesConsumed := 0 } := by subst hs2; exact hreq
  have htr2 : s2.trace = s.trace := by subst hs2; exact htr
  have htx2 : s2.txs = s.txs := by subst hs2; exact htx
  have hgap2 : s2.input.isGap = true := by subst hs2; exact hgap
  obtain ⟨hn1, -, ⟨st, hst1⟩, hres⟩ := requestNoteGap_noted e s2
  generalize hr : requestNoteGap e s2 = r at hn1 hst1 hres
  obtain ⟨o, s3⟩ := r
  dsimp only at hn1 hst1 hres
  have hfin : s3.trace = s.trace ∧ (∃ st, s3.req = { s.req with status := st, bytesConsumed := 0 }) ∧
      ∀ k, k ≠ s.txs.request → s3.txs.get k = s.txs.get k := by
    refine ⟨hn1.trace.trans htr2, ⟨st, ?_⟩, fun k hk => ?_⟩
    · rw [hst1, hreq2]
    · rw [hn1.others k (by rw [htx2]; exact hk), htx2]
  rcases hres with rfl | rfl
  · have hstep := C37_request_refused e s3 (by rw [hn1.input]; exact hgap2) (by rw [hst1, hreq2]; exact hs)
    dsimp only
    rw [requestLoop_some (by unfold requestRounds; omega) hstep]
    exact ⟨.inl rfl, hfin⟩
  · exact ⟨.inr rfl, hfin⟩

theorem C37_response_call (e : Env) (s : Conn) (n : Nat) (hn : n ≠ 0)
    (hst : s.resp.status ≠ .stop ∧ s.resp.status ≠ .error ∧ s.resp.status ≠ .tunnel)
    (hs : s.resp.state ≠ .bodyIdentityClKnown ∧ s.resp.state ≠ .bodyIdentityStreamClose ∧
      s.resp.state ≠ .finalize) :
    (((Op.response (.gap n)).run e s).1 = .ok (some .closed) ∨
      ((Op.response (.gap n)).run e s).1 = .ok (some .error)) ∧
    ((Op.response (.gap n)).after e s).trace = s.trace ∧
    (∃ st, ((Op.response (.gap n)).after e s).resp = { s.resp with status := st, bytesConsumed := 0 }) ∧
    (∀ k, k ≠ s.txs.response → ((Op.response (.gap n)).after e s).txs.get k = s.txs.get k) := by
  unfold Op.after
  rw [responseData_gap hn hst, responseProcess_gap (by rfl)]
  generalize hs2 : ({ responseOffered (.gap n) s with
    responseDataCounter := wrapAdd s.responseDataCounter n } : Conn) = s2
  have hreq2 : s2.resp = { s.resp with bytesConsumed := 0 } := by subst hs2; rfl
  have htr2 : s2.trace = s.trace := by subst hs2; rfl
  have htx2 : s2.txs = s.txs := by subst hs2; rfl
  have hgap2 : s2.input.isGap = true := by subst hs2; rfl
  obtain ⟨hn1, -, ⟨st, hst1⟩, hres⟩ := responseNoteGap_noted e s2
  generalize hr : responseNoteGap e s2 = r at hn1 hst1 hres
  obtain ⟨o, s3⟩ := r
  dsimp only at hn1 hst1 hres
  have hfin : s3.trace = s.trace ∧ (∃ st, s3.resp = { s.resp with status := st, bytesConsumed := 0 }) ∧
      ∀ k, k ≠ s.txs.response → s3.txs.get k = s.txs.get k := by
    refine ⟨hn1.trace.trans htr2, ⟨st, ?_⟩, fun k hk => ?_⟩
    · rw [hst1, hreq2]
    · rw [hn1.others k (by rw [htx2]; exact hk), htx2]
  rcases hres with rfl | rfl
  · have hstep := C37_response_refused e s3 (by rw [hn1.input]; exact hgap2) (by rw [hst1, hreq2]; exact hs)
    dsimp only
    rw [responseLoop_some (by unfold responseRounds; omega) hstep]
    exact ⟨.inl rfl, hfin⟩
  · exact ⟨.inr rfl, hfin⟩

/-- C37. A gap at the start of the connection, before any byte of a request (response): ERROR, for good. -/
theorem C37_request_leading (e : Env) (s : Conn) (n : Nat) (hn : n ≠ 0)
    (hst : s.req.status ≠ .stop ∧ s.req.status ≠ .error ∧ s.req.status ≠ .tunnel)
    (hi : s.txs.request = 0) (h0 : ∀ t, s.txs.get 0 = some t → t.requestProgress = .notStarted)
    (hroom : s.txs.map.length < e.cfg.maxTx) :
    ((Op.request (.gap n)).run e s).1 = .ok (some .error) ∧
    ((Op.request (.gap n)).after e s).req.status = .error ∧
    ((Op.request (.gap n)).after e s).trace = s.trace := by
  unfold Op.after
  rw [requestData_gap hn hst, requestProcess_gap (by rfl), requestNoteGap_eq]
  dsimp only [requestOffered]
  unfold Txs.requestMut Txs.entry
  rw [hi]
  cases hg : s.txs.get 0 with
  | none =>
    dsimp only
    rw [if_neg (by omega)]
    dsimp only
    rw [if_pos ⟨hi, rfl⟩]
    exact ⟨rfl, rfl, rfl⟩
  | some t =>
    dsimp only
    rw [if_pos ⟨hi, h0 t hg⟩]
    exact ⟨rfl, rfl, rfl⟩

/-- The test of the response side is on the index of the current *request*: a gap before the first response
is an error only while the first request is still current. -/
theorem C37_response_leading (e : Env) (s : Conn) (n : Nat) (hn : n ≠ 0)
    (hst : s.resp.status ≠ .stop ∧ s.resp.status ≠ .error ∧ s.resp.status ≠ .tunnel)
    (hi : s.txs.request = 0) (hr : s.txs.response = 0)
    (h0 : ∀ t, s.txs.get 0 = some t → t.responseProgress = .notStarted)
    (hroom : s.txs.map.length < e.cfg.maxTx) :
    ((Op.response (.gap n)).run e s).1 = .ok (some .error) ∧
    ((Op.response (.gap n)).after e s).resp.status = .error ∧
    ((Op.response (.gap n)).after e s).trace = s.trace := by
  unfold Op.after
  rw [responseData_gap hn hst, responseProcess_gap (by rfl), responseNoteGap_eq]
  dsimp only [responseOffered]
  unfold Txs.responseMut Txs.entry
  rw [hr]
  cases hg : s.txs.get 0 with
  | none =>
    dsimp only
    rw [if_neg (by omega)]
    dsimp only
    rw [if_pos ⟨hi, rfl⟩]
    exact ⟨rfl, rfl, rfl⟩
  | some t =>
    dsimp only
    rw [if_pos ⟨hi, h0 t hg⟩]
    exact ⟨rfl, rfl, rfl⟩

/-- A gap among the headers is refused; one in a body of known length is taken. -/
example : let s := Conn.history sampleEnv [.open, .request (.data (b! "GET / HTTP/1.1\r\nHo"))]
    s.req.status = .data ∧ s.req.state = .headers ∧
      ((Op.request (.gap 3)).run sampleEnv s).1 = .ok (some .closed) := by decide_cbv

example : let s := Conn.history sampleEnv [.open, .request (.data (b! "POST / HTTP/1.1\r\nContent-Length: 9\r\n\r\nabc"))]
    s.req.state = .bodyIdentity ∧ s.req.bodyDataLeft = some 6 ∧
      ((Op.request (.gap 4)).run sampleEnv s).1 = .ok (some .data) ∧
      ((Op.request (.gap 4)).after sampleEnv s).req.bodyDataLeft = some 2 := by decide_cbv

/-- The first thing on the connection is a gap. -/
example : let s := Conn.history sampleEnv [.open]
    s.req.status = .open ∧ s.txs.request = 0 ∧ s.txs.response = 0 ∧ s.txs.get 0 = none ∧
      s.txs.map.length < sampleEnv.cfg.maxTx := by decide_cbv

/-- A leading gap when the store of transactions is full is answered with ERROR, but the stream has not failed:
the next call is processed. -/
theorem C37_full_store_not_sticky :
    ∃ (e : Env) (s : Conn), Reachable e s ∧ ((Op.request (.gap 1)).run e s).1 = .ok (some .error) ∧
      ((Op.request (.gap 1)).after e s).req.status = .open := by
  refine ⟨{ sampleEnv with cfg := { sampleEnv.cfg with maxTx := 0 } },
    Conn.history { sampleEnv with cfg := { sampleEnv.cfg with maxTx := 0 } } [.open], .history _ ?_, ?_, ?_⟩ <;>
    decide_cbv

end Props

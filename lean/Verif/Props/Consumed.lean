/-
C76: the answer of a call tells whether the chunk was used up.
-/
import Verif.Lemmas.ConsumedCalls

namespace Props

open Model Spec

/-- C76, requests. Whatever was fed before and whatever is fed now: the answer `DATA` means that the whole chunk was
consumed, the answer `DATA_OTHER` that some of it was not. -/
theorem C76_request {e : Env} (hd : Definite e) {s : Conn} (hs : Reachable e s) (c : Chunk) {r : Option StreamState} {s' : Conn}
    (h : (Op.request c).run e s = (.ok r, s')) : Candid (·.req.bytesConsumed) c r s' := by
  have hb := boundary_of_reachable hs
  have h1 := requestData_done e c.toPData s (fresh_chunk c hb.reqOpen) hb.reqBuf
  have h2 := requestData_told hd c.toPData s (lives_of_reachable hd hs).req
  have h' : requestData e c.toPData s = (.ok r, s') := h
  unfold post at h1 h2
  rw [h'] at h1 h2
  have hc := h1.1.consumed
  have hi := h1.1.inside
  have ht := h1.2.1
  rw [toPData_total] at ht
  have hl := s'.input.len_eq
  refine ⟨fun hr => ?_, fun hr => ?_⟩
  · have := h2.data (congrArg _ hr)
    dsimp only at *
    omega
  · have := h2.other (congrArg _ hr)
    dsimp only at *
    omega

/-- C76, responses. The same, except for a gap in a body that ends with the stream. -/
theorem C76_response_partial {e : Env} (hd : Definite e) {s : Conn} (hs : Reachable e s) (c : Chunk)
    (hg : ∀ n, c = .gap n → s.resp.state ≠ .bodyIdentityStreamClose) {r : Option StreamState} {s' : Conn}
    (h : (Op.response c).run e s = (.ok r, s')) : Candid (·.resp.bytesConsumed) c r s' := by
  have hb := boundary_of_reachable hs
  have h1 := responseData_done e c.toPData s (fresh_chunk c hb.respOpen) hb.respBuf
  have h2 := responseData_told hd c.toPData s (lives_of_reachable hd hs).resp
  have h' : responseData e c.toPData s = (.ok r, s') := h
  unfold post at h1 h2
  rw [h'] at h1 h2
  have hf : c.toPData.isGap = true → s.resp.state ≠ .bodyIdentityStreamClose := fun hi => by
    obtain ⟨n, hn⟩ := toPData_gap hi
    exact hg n hn
  have hc := h1.1.consumed
  have hi := h1.1.inside
  have ht := h1.2.1
  rw [toPData_total] at ht
  have hl := s'.input.len_eq
  refine ⟨fun hr => ?_, fun hr => ?_⟩
  · have := h2.data hf (congrArg _ hr)
    dsimp only at *
    omega
  · have := h2.other (congrArg _ hr)
    dsimp only at *
    omega

/-- C76. In particular data that is not a gap is answered candidly on the response side as well. -/
theorem C76_response_data {e : Env} (hd : Definite e) {s : Conn} (hs : Reachable e s) (b : Bytes) {r : Option StreamState} {s' : Conn}
    (h : (Op.response (.data b)).run e s = (.ok r, s')) : Candid (·.resp.bytesConsumed) (.data b) r s' :=
  C76_response_partial hd hs (.data b) nofun h

/-! ### Cases -/

/-- The callbacks of the examples never refuse. -/
theorem definite_sample : Definite sampleEnv := ⟨nofun, nofun⟩

/-- A request cut in the middle of its headers: `DATA`, and all of it consumed. -/
example : Reachable sampleEnv (Conn.history sampleEnv [.open]) ∧
    ((Op.request (.data (b! "POST / HTTP/1.1\r\nHos"))).run sampleEnv (Conn.history sampleEnv [.open])).1 = .ok (some .data) ∧
    ((Op.request (.data (b! "POST / HTTP/1.1\r\nHos"))).after sampleEnv (Conn.history sampleEnv [.open])).req.bytesConsumed = 20 :=
  ⟨.history _ (by decide_cbv), by decide_cbv, by decide_cbv⟩

/-- Two CONNECT requests at once: the second waits for the response to the first: `DATA_OTHER`, and part of it consumed. -/
example : ((Op.request (.data (b! "CONNECT a:1 HTTP/1.1\r\nHost: a\r\n\r\nGET / HTTP/1.1\r\n\r\n"))).run sampleEnv
      (Conn.history sampleEnv [.open])).1 = .ok (some .dataOther) ∧
    ((Op.request (.data (b! "CONNECT a:1 HTTP/1.1\r\nHost: a\r\n\r\nGET / HTTP/1.1\r\n\r\n"))).after sampleEnv
      (Conn.history sampleEnv [.open])).req.bytesConsumed = 33 := by
  constructor <;> decide_cbv

/-- A gap inside a body of known length: `DATA`, and all of it consumed. -/
example : ((Op.response (.gap 3)).run sampleEnv (Conn.history sampleEnv [.open,
      .request (.data (b! "GET / HTTP/1.1\r\nHost: a\r\n\r\n")),
      .response (.data (b! "HTTP/1.1 200 OK\r\nContent-Length: 9\r\n\r\nab"))])).1 = .ok (some .data) ∧
    ((Op.response (.gap 3)).after sampleEnv (Conn.history sampleEnv [.open,
      .request (.data (b! "GET / HTTP/1.1\r\nHost: a\r\n\r\n")),
      .response (.data (b! "HTTP/1.1 200 OK\r\nContent-Length: 9\r\n\r\nab"))])).resp.bytesConsumed = 3 := by
  constructor <;> decide_cbv

/-! ### What is false -/

/-- A gap in a body that ends with the stream is answered `DATA`, and nothing of it is counted as consumed
(src/response.rs:329-343). -/
theorem C76_response_gap : ∃ (e : Env) (s : Conn) (n : Nat), Definite e ∧ Reachable e s ∧ 0 < n ∧
    ((Op.response (.gap n)).run e s).1 = .ok (some .data) ∧ ((Op.response (.gap n)).after e s).resp.bytesConsumed = 0 :=
  ⟨sampleEnv, Conn.history sampleEnv [.open, .request (.data (b! "GET / HTTP/1.1\r\nHost: a\r\n\r\n")),
    .response (.data (b! "HTTP/1.1 200 OK\r\nServer: x\r\n\r\nab"))], 3, definite_sample, .history _ (by decide_cbv),
    by decide, by decide_cbv, by decide_cbv⟩

/-- A callback that answers DATA makes the call answer `DATA` although most of the chunk is unread. -/
theorem C76_callback_data : ∃ (e : Env) (s : Conn) (c : Chunk), Reachable e s ∧
    ((Op.request c).run e s).1 = .ok (some .data) ∧ ((Op.request c).after e s).req.bytesConsumed < chunkLength c :=
  ⟨failingEnv .requestLine .data, Conn.history (failingEnv .requestLine .data) [.open],
    .data (b! "GET / HTTP/1.1\r\nHost: a\r\n\r\n"), .history _ (by decide_cbv), by decide_cbv, by decide_cbv⟩

end Props

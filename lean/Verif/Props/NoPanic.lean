/-
C55: no operation on a connection panics.
-/
import Verif.Lemmas.NoPanicResp
import Verif.Props.Stream

namespace Props

open Model Spec M

/-- C55. In a build with wrapping arithmetic (`ovf = false`), no operation panics: whatever the
configuration, the callbacks (which may return any status at any time), the external decompressors, the
state of the connection (reachable or not) and the data. -/
theorem C55_no_panic (e : Env) (he : e.ovf = false) (s : Conn) (op : Op) : (op.run e s).1 ≠ .error .panic :=
  (Op.run_calm he op s trivial).1

/-- C55. Feeding a chunk of requests or responses always returns a stream state. -/
theorem C55_request_answers (e : Env) (he : e.ovf = false) (s : Conn) (h : Reachable e s) (c : Chunk) :
    ∃ st, ((Op.request c).run e s).1 = .ok (some st) :=
  (C32_request e s h c).resolve_right (C55_no_panic e he s _)

theorem C55_response_answers (e : Env) (he : e.ovf = false) (s : Conn) (h : Reachable e s) (c : Chunk) :
    ∃ st, ((Op.response c).run e s).1 = .ok (some st) :=
  (C32_response e s h c).resolve_right (C55_no_panic e he s _)

/-- C55. So does closing, for both streams. -/
theorem C55_close_answers (e : Env) (he : e.ovf = false) (s : Conn) (h : Reachable e s) :
    (∃ st, (Op.requestClose.run e s).1 = .ok (some st)) ∧ (∃ a b, (closeConn e s).1 = .ok (some a, some b)) :=
  ⟨(C32_close e s h).1.resolve_right (C55_no_panic e he s _),
   (C32_close e s h).2.resolve_right (closeConn_calm he s trivial).1⟩

/-- C55. Every operation returns. -/
theorem C55_returns (e : Env) (he : e.ovf = false) (s : Conn) (h : Reachable e s) (op : Op) :
    ∃ r, (op.run e s).1 = .ok r := by
  cases op with
  | «open» => exact ⟨_, rfl⟩
  | request c => obtain ⟨st, h⟩ := C55_request_answers e he s h c; exact ⟨_, h⟩
  | response c => obtain ⟨st, h⟩ := C55_response_answers e he s h c; exact ⟨_, h⟩
  | requestClose => obtain ⟨st, h⟩ := (C55_close_answers e he s h).1; exact ⟨_, h⟩
  | close =>
    obtain ⟨a, b, h⟩ := (C55_close_answers e he s h).2
    refine ⟨none, ?_⟩
    show ((closeConn e >>= fun _ => pure none) s).1 = _
    refine post.bind (Q := fun r _ => r = .ok none) ?_
    unfold post
    rw [h]
    rfl
  | removeTx i => exact ⟨_, rfl⟩
  | askRequest => exact ⟨_, rfl⟩
  | askResponse => exact ⟨_, rfl⟩

/-- C55. Every history of operations can be carried out: no operation of it fails to return. -/
theorem C55_history (e : Env) (he : e.ovf = false) (ops : List Op) : Reachable e (Conn.history e ops) := by
  have key : ∀ (ops : List Op) (s : Conn), Reachable e s → Reachable e (ops.foldl (Op.after e) s) := by
    intro ops
    induction ops with
    | nil => exact fun s h => h
    | cons op ops ih =>
      intro s h
      refine ih _ ?_
      obtain ⟨r, hr⟩ := C55_returns e he s h op
      exact .call op r h (Prod.ext hr rfl)
  exact key ops {} .new

set_option maxRecDepth 8000 in
/-- The connection goes through every kind of operation: a request with a body, a transaction removed while
its response is awaited, a response, a gap. -/
example : let e := { sampleEnv with ovf := false }
    let s := Conn.history e [.open, .request (.data (b! "POST /%zz HTTP/1.1\r\nContent-Length: 3\r\n\r\nab")),
      .removeTx 0, .request (.data (b! "c")), .response (.data (b! "HTTP/1.1 200 OK\r\nContent-Length: 9\r\n\r\nab")),
      .response (.gap 3)];
    ((Op.response (.data (b! "cdef"))).run e s).1 = .ok (some .data) ∧ s.trace.length = 20 := by decide_cbv

/-- Findings: in a build with overflow checks a request makes the parser panic when invalid
percent-encodings are processed. -/
theorem C55_checked_build_panics :
    ∃ (e : Env) (c : Chunk), e.ovf = true ∧ ((Op.request c).run e (Conn.history e [.open])).1 = .error .panic := by
  refine ⟨{ sampleEnv with cfg := { decoderCfg := { urlEncodingInvalidHandling := .processInvalid } } },
    .data (b! "GET /%`0 HTTP/1.1\r\n"), ?_, ?_⟩ <;> decide_cbv

end Props

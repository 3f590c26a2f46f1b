/-
C80: a response moves the request parser only by refusing a body.
-/
import Verif.Lemmas.Expect
import Verif.Props.Interim

namespace Props

open Model Spec

/-- A response has done to the request parser nothing but what a refusal does: it was told the length of a body of which
nothing has come, the request whose body that is waits for permission, and it goes to the end of that request. -/
def OnlyRefused (s s' : Conn) : Prop :=
  ParserKept s.req s'.req ∨
  ParserEnded s.req s'.req ∧ WholeBodyAhead s.req ∧ ∃ t, s.txs.get s.txs.request = some t ∧ Expects t

/-- C80. Whatever is fed to the response side, in whatever state and with whatever callbacks: the request parser is left alone
but for its status, unless nothing has come of a body whose length it was told and a request that is not answered yet waits
for permission; then it may be sent to the end of the request that it is reading. Partial: the request that waits need not be
the one that is being read (`C80_wrong_request_ended` below), as `OnlyRefused` would have it. -/
theorem C80_only_refusals_partial (e : Env) (s : Conn) (ops : List Op) (ho : ∀ op ∈ ops, ResponseCall op) :
    ∀ s', ops.foldl (Op.after e) s = s' →
      ParserKept s.req s'.req ∨
      ParserEnded s.req s'.req ∧ WholeBodyAhead s.req ∧
        ∃ k t, s.txs.response ≤ k ∧ k ≤ s'.txs.response ∧ s.txs.get k = some t ∧ Expects t := by
  rintro s' rfl
  exact (responses_alone ho (alone_refl s)).parser

/-- If no other request is without an answer, it is the one that is being read. -/
theorem C80_not_pipelined_partial (e : Env) (s : Conn) (ops : List Op) (ho : ∀ op ∈ ops, ResponseCall op)
    (h1 : ∀ k t, s.txs.response ≤ k → s.txs.get k = some t → k = s.txs.request) :
    OnlyRefused s (ops.foldl (Op.after e) s) := by
  rcases C80_only_refusals_partial e s ops ho _ rfl with h | ⟨h2, h3, k, t, h4, -, h6, h7⟩
  · exact .inl h
  · exact .inr ⟨h2, h3, t, by rw [← h1 k t h4 h6]; exact h6, h7⟩

/-- A request whose body has begun, or that has none, or none of a known length, is read to its end whatever the responses
are. -/
theorem C80_body_begun (e : Env) (s : Conn) (ops : List Op) (ho : ∀ op ∈ ops, ResponseCall op) (h : ¬ WholeBodyAhead s.req) :
    ParserKept s.req (ops.foldl (Op.after e) s).req := by
  rcases C80_only_refusals_partial e s ops ho _ rfl with h1 | ⟨-, h1, -⟩
  · exact h1
  · exact absurd h1 h

/-- So is every request while none waits for permission. -/
theorem C80_nobody_waits (e : Env) (s : Conn) (ops : List Op) (ho : ∀ op ∈ ops, ResponseCall op)
    (h : ∀ k t, s.txs.response ≤ k → s.txs.get k = some t → ¬ Expects t) : ParserKept s.req (ops.foldl (Op.after e) s).req := by
  rcases C80_only_refusals_partial e s ops ho _ rfl with h1 | ⟨-, -, k, t, h2, -, h3, h4⟩
  · exact h1
  · exact absurd h4 (h k t h2 h3)

/-! ### Concrete cases -/

/-- A refusal, and a response with another status. -/
def refusal : Bytes := b! "HTTP/1.1 417 Expectation Failed\r\nContent-Length: 0\r\n\r\n"
def acceptance : Bytes := b! "HTTP/1.1 200 OK\r\nContent-Length: 0\r\n\r\n"
def failure : Bytes := b! "HTTP/1.1 500 Internal Server Error\r\nContent-Length: 0\r\n\r\n"

/-- A request after it. -/
def nextRequest : Bytes := b! "GET /c HTTP/1.1\r\nHost: a\r\n\r\n"

set_option maxRecDepth 8000 in
theorem expecting_lengths : expecting.req.contentLength = some 2 ∧ expecting.req.bodyDataLeft = some 2 ∧
    expecting.req.state = .bodyIdentity ∧ expecting.txs.request = 0 ∧ expecting.txs.response = 0 := by
  refine ⟨?_, ?_, ?_, ?_, ?_⟩ <;> decide_cbv

set_option maxRecDepth 8000 in
theorem expecting_headers : (expecting.txs.get 0).map (·.requestHeaders.map fun h => (h.name, h.value)) =
    some [(b! "Host", b! "a"), (b! "Expect", b! "100-continue"), (b! "Content-Length", b! "2")] := by decide_cbv

/-- Case for C80_only_refusals_partial and C80_not_pipelined_partial: the request waits and its body has not begun. -/
example : WholeBodyAhead expecting.req ∧ ∃ t, expecting.txs.get expecting.txs.request = some t ∧ Expects t := by
  obtain ⟨h1, h2, -, h3, -⟩ := expecting_lengths
  refine ⟨⟨by rw [h1]; decide, by rw [h1, h2]⟩, ?_⟩
  rw [h3]
  have h4 := expecting_headers
  rcases h : expecting.txs.get 0 with _ | t
  · rw [h] at h4; cases h4
  · rw [h, Option.map_some, Option.some.injEq] at h4
    have : (b! "Expect", b! "100-continue") ∈ t.requestHeaders.map fun h => (h.name, h.value) := by rw [h4]; decide
    obtain ⟨x, hx, hp⟩ := List.mem_map.mp this
    simp only [Prod.mk.injEq] at hp
    exact ⟨t, rfl, x, hx, by rw [hp.1]; exact (cmpNocaseTrimmed_iff _ _).mp (by decide +kernel), hp.2⟩

set_option maxRecDepth 8000 in
/-- The second case of C80_only_refusals_partial does happen: the refused request ends without a body, and what comes next is
the next request. -/
example : ∀ s s', (Op.response (.data refusal)).after sampleEnv expecting = s →
      (Op.request (.data nextRequest)).after sampleEnv s = s' →
      s.req.state = .finalize ∧
      (s'.txs.get 0).map (fun t => (t.requestProgress, t.requestEntityLen)) = some (.complete, 0) ∧
      (s'.txs.get 1).map (fun t => (t.requestUri, t.requestProgress)) = some (some (b! "/c"), .complete) := by
  rintro _ _ rfl rfl
  refine ⟨?_, ?_, ?_⟩ <;> decide_cbv

set_option maxRecDepth 8000 in
/-- A response that is no refusal leaves the parser alone: the body is still awaited. -/
example : ∀ s s', (Op.response (.data acceptance)).after sampleEnv expecting = s →
      (Op.response (.data failure)).after sampleEnv expecting = s' →
      s.req.state = .bodyIdentity ∧ s'.req.state = .bodyIdentity := by
  rintro _ _ rfl rfl
  refine ⟨?_, ?_⟩ <;> decide_cbv

set_option maxRecDepth 8000 in
/-- Case for C80_body_begun: part of the body has come. -/
example : ∀ s, (Op.request (.data (b! "o"))).after sampleEnv expecting = s → ¬ WholeBodyAhead s.req ∧
    ∀ s', (Op.response (.data refusal)).after sampleEnv s = s' → s'.req.state = .bodyIdentity := by
  rintro _ rfl
  refine ⟨?_, ?_⟩
  · have h1 : ((Op.request (.data (b! "o"))).after sampleEnv expecting).req.contentLength = some 2 := by decide_cbv
    have h2 : ((Op.request (.data (b! "o"))).after sampleEnv expecting).req.bodyDataLeft = some 1 := by decide_cbv
    unfold WholeBodyAhead
    rw [h1, h2]
    decide
  · rintro _ rfl
    decide_cbv

/-- A request waits for permission and sends its body all the same; the head of the next one, which does not wait, follows. -/
def twoPuts : Conn := Conn.history sampleEnv
  [.request (.data (b! "PUT /a HTTP/1.1\r\nHost: a\r\nExpect: 100-continue\r\nContent-Length: 2\r\n\r\nok")),
   .request (.data (b! "PUT /b HTTP/1.1\r\nHost: a\r\nContent-Length: 28\r\n\r\n"))]

set_option maxRecDepth 8000 in
theorem twoPuts_state : twoPuts.req.state = .bodyIdentity := by decide_cbv

set_option maxRecDepth 8000 in
/-- C80, what is missing. The refusal of the first request ends the second one, which did not wait for anything: it is over
without its body, and its body is read as a request. -/
theorem C80_wrong_request_ended :
    (twoPuts.txs.request, twoPuts.txs.response) = (1, 0) ∧
    (twoPuts.txs.get 1).map (·.requestHeaders.map (·.name)) = some [b! "Host", b! "Content-Length"] ∧
    nextRequest.length = 28 ∧
    ∀ s s', (Op.response (.data refusal)).after sampleEnv twoPuts = s →
      (Op.request (.data nextRequest)).after sampleEnv s = s' →
      s.req.state = .finalize ∧
      (s'.txs.get 1).map (fun t => (t.requestProgress, t.requestEntityLen)) = some (.complete, 0) ∧
      (s'.txs.get 2).map (fun t => (t.requestUri, t.requestProgress)) = some (some (b! "/c"), .complete) := by
  refine ⟨by decide_cbv, by decide_cbv, by decide, ?_⟩
  rintro _ _ rfl rfl
  refine ⟨?_, ?_, ?_⟩ <;> decide_cbv

/-- So the full statement is false of the code. -/
theorem C80_full_false :
    ¬ ∀ (e : Env) (s : Conn) (ops : List Op), (∀ op ∈ ops, ResponseCall op) → OnlyRefused s (ops.foldl (Op.after e) s) := by
  intro h
  obtain ⟨h1, h2, -, h3⟩ := C80_wrong_request_ended
  have h0 := h sampleEnv twoPuts [.response (.data refusal)] (by intro op hop; rw [List.mem_singleton] at hop; rw [hop]; exact trivial)
  rw [List.foldl_cons, List.foldl_nil] at h0
  generalize hs : (Op.response (.data refusal)).after sampleEnv twoPuts = s at h0
  have h4 := (h3 s _ hs rfl).1
  simp only [Prod.mk.injEq] at h1
  rcases h0 with h5 | ⟨-, -, t, h5, x, hx, hn, -⟩
  · have h7 := parserKept_state h5
    rw [h4, twoPuts_state] at h7
    cases h7
  · rw [h1.1] at h5
    rw [h5, Option.map_some, Option.some.injEq] at h2
    have h6 : x.name ∈ t.requestHeaders.map (·.name) := List.mem_map_of_mem hx
    rw [h2] at h6
    have h7 := (cmpNocaseTrimmed_iff _ _).mpr hn
    simp only [List.mem_cons, List.not_mem_nil, or_false] at h6
    rcases h6 with h6 | h6 <;> rw [h6] at h7 <;> revert h7 <;> decide +kernel

end Props

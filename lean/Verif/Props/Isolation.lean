/-
C72: requests and responses do not disturb each other.
-/
import Verif.Lemmas.Isolation
import Verif.Props.Interim

namespace Props

open Model Spec

/-- C72, requests. Whatever is fed to the request side, in whatever state and with whatever callbacks: what is recorded of the
responses stays what it was. -/
theorem C72_requests_leave_responses (e : Env) (s : Conn) (ops : List Op) (ho : ∀ op ∈ ops, RequestCall op) :
    ResponsesUntouched e s (ops.foldl (Op.after e) s) := requests_apart e s ops ho

/-- C72, responses. Whatever is fed to the response side: what is recorded of requests that have begun stays what it was, and
where none has begun there is nothing but a request that is marked as made up. -/
theorem C72_responses_leave_requests (e : Env) (s : Conn) (ops : List Op) (ho : ∀ op ∈ ops, ResponseCall op) :
    RequestsUntouched e s (ops.foldl (Op.after e) s) := responses_apart e s ops ho

/-- What is fed to the request side between two responses to the same request (the body that an interim response has asked
for, say) does not change that the next one is awaited, unless a tunnel begins. -/
theorem C71_requests_between {e : Env} {s : Conn} {t : Tx} (h : AwaitsResponse s t) (ops : List Op) (ho : ∀ op ∈ ops, RequestCall op) :
    ∀ s', ops.foldl (Op.after e) s = s' → s'.resp.status ≠ .tunnel →
      ∃ t', AwaitsResponse s' t' ∧ responseSide t' = responseSide t ∧ s'.txs.response = s.txs.response := by
  rintro s' rfl hst
  have hu := requests_apart e s ops ho
  generalize ops.foldl (Op.after e) s = s' at hu hst
  rcases hu.kept _ _ h.current with ⟨t', h1, h2⟩ | ⟨-, h1, -⟩
  · have field : ∀ {α : Type} (f : Tx → α), (∀ u, f (responseSide u) = f u) → f t' = f t := fun f hf => by
      rw [← hf, h2, hf]
    have half : ∀ {α : Type} (f : Half → α), (∀ u : Half, f { u with status := .new } = f u) → f s'.resp = f s.resp := fun f hf => by
      rw [← hf, hu.machine, hf]
    refine ⟨t', ⟨by rw [hu.index]; exact h1, ⟨(half (·.state) fun _ => rfl).trans h.state.1, (half (·.statePrevious) fun _ => rfl).trans h.state.2⟩,
      (half (·.buf) fun _ => rfl).trans h.buf, (half (·.header) fun _ => rfl).trans h.header, ?_, hu.other.trans h.notBlocked,
      (field (·.seen100Continue) fun _ => rfl).trans h.seen, (field (·.responseHeaders) fun _ => rfl).trans h.noHeaders,
      (field (·.responseHeaderRepetitions) fun _ => rfl).trans h.noRepetitions, (field (·.responseContentLength) fun _ => rfl).trans h.noLength,
      (field (·.responseEntityLen) fun _ => rfl).trans h.noBody, (field (·.responseProgress) fun _ => rfl).trans h.progress,
      (field (·.responseHeaderParser) fun _ => rfl).trans h.parser⟩, h2, hu.index⟩
    rcases hu.status with h3 | h3 | h3
    · exact h3.trans h.status
    · exact absurd h3 hst
    · exact h3.2
  · rw [h.progress] at h1; cases h1

/-! ### Concrete cases -/

/-- The head of a request that waits for permission, and the permission. -/
def permitted : Conn := Conn.history sampleEnv [.request (.data expectingRequest), .response (.data bareInterim.render)]

/-- What has to be looked at in a state in which a response is awaited. -/
theorem awaits_of {s : Conn}
    (h1 : ((s.txs.get s.txs.response).map fun t => (t.seen100Continue, t.responseHeaders, t.responseHeaderRepetitions)) = some (true, [], 0))
    (h2 : ((s.txs.get s.txs.response).map fun t => (t.responseContentLength, t.responseEntityLen, t.responseProgress, t.responseHeaderParser)) =
      some (none, 0, .line, { side := .response }))
    (h3 : (s.resp.state, s.resp.statePrevious, s.resp.status) = (.line, .line, .data))
    (h4 : (s.resp.buf, s.resp.header, s.responseDataOtherAtTxEnd) = ([], none, false)) : ∃ t, AwaitsResponse s t := by
  rcases h : s.txs.get s.txs.response with _ | t
  · rw [h] at h1; cases h1
  · rw [h] at h1 h2
    simp only [Option.map_some, Option.some.injEq, Prod.mk.injEq] at h1 h2 h3 h4
    exact ⟨t, h, ⟨h3.1, h3.2.1⟩, h4.1, h4.2.1, h3.2.2, h4.2.2, h1.1, h1.2.1, h1.2.2, h2.1, h2.2.1, h2.2.2.1, h2.2.2.2⟩

set_option maxRecDepth 8000 in
theorem permitted_awaits : ∃ t, AwaitsResponse permitted t := by
  refine awaits_of ?_ ?_ ?_ ?_ <;> decide_cbv

/-- The body has come as well. -/
def followed : Conn := [Op.request (.data (b! "ok"))].foldl (Op.after sampleEnv) permitted

set_option maxRecDepth 8000 in
theorem followed_status : followed.resp.status = .data := by decide_cbv

set_option maxRecDepth 8000 in
theorem followed_request : (followed.txs.get followed.txs.response).map (fun t => (t.requestProgress, t.requestMethodNumber, t.isProtocol09)) =
    some (.complete, .put, false) := by decide_cbv

/-- Case for C71_requests_between: the body comes when it is permitted, and then the final response meets the conditions of
C71_final_response_partial. -/
example : (∃ t, AwaitsResponse permitted t) ∧
    ∃ t, followed.txs.get followed.txs.response = some t ∧ NextStatusLine followed t [] ∧ Answerable t sizedResponse := by
  obtain ⟨t, h⟩ := permitted_awaits
  refine ⟨⟨t, h⟩, ?_⟩
  obtain ⟨t', h5, -⟩ := C71_requests_between h [.request (.data (b! "ok"))]
    (fun op hop => by rw [List.mem_singleton] at hop; rw [hop]; exact trivial) followed followed.eq_def.symm (by rw [followed_status]; decide)
  exact ⟨t', h5.current, .waiting h5, answerable_of h5.current followed_request (by decide) sizedResponse_wellFormed⟩

/-- A request has been answered in part, the next one has come in part, and there is none after it. -/
def midway : Conn := Conn.history sampleEnv
  [.request (.data (b! "GET /a HTTP/1.1\r\nHost: a\r\n\r\nPUT /b HTTP/1.1\r\nHost: a\r\nContent-Length: 4\r\n\r\nok")),
   .response (.data (b! "HTTP/1.1 200 OK\r\nContent-Length: 4\r\n\r\nab"))]

set_option maxRecDepth 8000 in
/-- Case for C72_requests_leave_responses: the rest of the second request and a third one come while the first response is
under way. The first and the second transaction were there before, the third is new. -/
example : (midway.txs.get 0).map (·.responseProgress) = some .body ∧
    (midway.txs.get 1).map (·.requestProgress) = some .body ∧ midway.txs.get 2 = none ∧
    (∀ op ∈ [Op.request (.data (b! "ok")), .request (.data (b! "GET /c HTTP/1.1\r\nHost: a\r\n\r\n")), .requestClose], RequestCall op) ∧
    ∀ s, [Op.request (.data (b! "ok")), .request (.data (b! "GET /c HTTP/1.1\r\nHost: a\r\n\r\n")), .requestClose].foldl
        (Op.after sampleEnv) midway = s →
      (s.txs.get 1).map (·.requestProgress) = some .complete ∧ (s.txs.get 2).map (·.requestUri) = some (some (b! "/c")) := by
  refine ⟨by decide_cbv, by decide_cbv, by decide_cbv, ?_, ?_⟩
  · intro op hop
    simp only [List.mem_cons, List.not_mem_nil, or_false] at hop
    rcases hop with rfl | rfl | rfl <;> exact trivial
  · rintro _ rfl
    refine ⟨?_, ?_⟩ <;> decide_cbv

set_option maxRecDepth 8000 in
/-- Case for C72_responses_leave_requests: the rest of the first response and all of the second come while the second request
is under way, and a third one without a request. -/
example : (∀ op ∈ [Op.response (.data (b! "cd")), .response (.data (b! "HTTP/1.1 200 OK\r\nContent-Length: 0\r\n\r\n"))], ResponseCall op) ∧
    (∀ k t, midway.txs.get k = some t → k < 2 → t.requestProgress ≠ .notStarted ∧ t.isComplete = false) ∧
    ∀ s, [Op.response (.data (b! "cd")), .response (.data (b! "HTTP/1.1 200 OK\r\nContent-Length: 0\r\n\r\n"))].foldl
        (Op.after sampleEnv) midway = s →
      (s.txs.get 0).map (·.responseProgress) = some .complete ∧ (s.txs.get 1).map (·.responseProgress) = some .complete ∧
      s.txs.request = 1 := by
  refine ⟨?_, ?_, ?_⟩
  · intro op hop
    simp only [List.mem_cons, List.not_mem_nil, or_false] at hop
    rcases hop with rfl | rfl <;> exact trivial
  · have h0 : (midway.txs.get 0).map (fun t => (t.requestProgress, t.isComplete)) = some (.complete, false) := by decide_cbv
    have h1 : (midway.txs.get 1).map (fun t => (t.requestProgress, t.isComplete)) = some (.body, false) := by decide_cbv
    intro k t h hk
    have : k = 0 ∨ k = 1 := by omega
    rcases this with rfl | rfl
    · rw [h] at h0; simp only [Option.map_some, Option.some.injEq, Prod.mk.injEq] at h0
      exact ⟨by rw [h0.1]; decide, h0.2⟩
    · rw [h] at h1; simp only [Option.map_some, Option.some.injEq, Prod.mk.injEq] at h1
      exact ⟨by rw [h1.1]; decide, h1.2⟩
  · rintro _ rfl
    refine ⟨?_, ?_, ?_⟩ <;> decide_cbv

set_option maxRecDepth 8000 in
/-- The exception is needed: a response without a request makes one up. -/
theorem C72_made_up_request :
    ∀ s, (Op.response (.data (b! "HTTP/1.1 200 OK\r\nContent-Length: 0\r\n\r\n"))).after sampleEnv {} = s →
      (s.txs.get 0).map (fun t => (t.requestUri, t.requestProgress)) =
        some (some (b! "/libhtp::request_uri_not_seen"), .complete) ∧ s.txs.request = 1 := by
  rintro _ rfl
  refine ⟨?_, ?_⟩ <;> decide_cbv

/-- A request has come whole and been removed by the user, and the next one has come in part. -/
def removed : Conn := Conn.history sampleEnv
  [.request (.data (b! "GET /a HTTP/1.1\r\nHost: a\r\n\r\nPUT /b HTTP/1.1\r\nHost: a\r\nContent-Length: 4\r\n\r\nok")), .removeTx 0]

set_option maxRecDepth 8000 in
/-- So is the one for the current request: where the user has removed the transaction of a request that is not answered yet,
the answer makes one up and moves the request parser on, in the middle of another request. The rest of that request's body
is taken for one of a new transaction. -/
theorem C72_request_cut_short :
    removed.txs.request = 1 ∧ (removed.txs.get 1).map (·.requestProgress) = some .body ∧
    ∀ s s', (Op.response (.data (b! "HTTP/1.1 200 OK\r\nContent-Length: 0\r\n\r\n"))).after sampleEnv removed = s →
      (Op.request (.data (b! "ok"))).after sampleEnv s = s' →
      s.txs.request = 2 ∧ (s'.txs.get 1).map (·.requestProgress) = some .body ∧
      .data .requestBodyData 2 (.ofBytes (b! "ok")) ∈ s'.trace := by
  refine ⟨by decide_cbv, by decide_cbv, ?_⟩
  rintro _ _ rfl rfl
  refine ⟨?_, ?_, ?_⟩ <;> decide_cbv

end Props

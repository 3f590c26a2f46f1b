/-
C36: the order of the callbacks of a request. C48: which transaction a request or a response belongs to.
-/
import Verif.Lemmas.OrderOps

namespace Props

open Model Spec

/-- A request, its answer, and a second request. -/
def C36_ops : List Op :=
  [.open,
    .request (.data (b! "POST / HTTP/1.1\r\nTransfer-Encoding: chunked\r\n\r\n3\r\nab")),
    .request (.data (b! "c\r\n0\r\nT: 1\r\n\r\n")),
    .response (.data (b! "HTTP/1.1 200 OK\r\nContent-Length: 1\r\n\r\nx")),
    .request (.data (b! "GET / HTTP/1.1\r\nA: b\r\n\r\n"))]

/-- C36 (partial). The request callbacks of a connection come one transaction after the other, and within a
transaction in the order start, line, headers, body and trailer, completion; a transaction is started at
most once and completed at most once.

Missing: histories in which a callback for the end of a request or of a transaction fails
(`C36_end_refused`), histories in which a response comes before its request (`C48_response_ahead`); and body
data may come after the trailer (`C36_body_after_trailer`). -/
theorem C36_order_partial {e : Env} {s : Conn} (hE : EndsAccepted e) (h : Requested e s) :
    (s.trace.filterMap requestStage).Pairwise Before :=
  (requested_orderly hE h).core.1

/-- C48 (partial), requests: every callback of a request is for the transaction whose index is the number of
requests completed before it, and the requests completed are those of the transactions 0, 1, 2, ... -/
theorem C48_request_partial {e : Env} {s : Conn} (hE : EndsAccepted e) (h : Requested e s) :
    (∃ n, hookRuns .requestComplete s.trace = List.range n) ∧
    ∀ before ev after i stage, s.trace = before ++ ev :: after → requestStage ev = some (i, stage) →
      hookRuns .requestComplete before = List.range i :=
  have hc := (requested_orderly hE h).core
  ⟨⟨_, hc.3⟩, hc.4⟩

/-- C48, responses: the responses are started for the transactions 0, 1, 2, ... in this order, whatever the
order in which requests and responses are received, and every callback of a response is for the response
started last: the n-th response belongs to the transaction with index n. -/
theorem C48_response {e : Env} {s : Conn} (h : Reachable e s) :
    (∃ n, hookRuns .responseStart s.trace = List.range n) ∧
    ∀ before ev after i, s.trace = before ++ ev :: after → responseIndex ev = some i →
      hookRuns .responseStart (before ++ [ev]) = List.range (i + 1) :=
  have hr := (reachable_side h).replies
  ⟨⟨_, hr.started⟩, hr.numbered⟩

/-- The hypotheses are met by this history, in which the callbacks of two requests and of one response are
run. -/
example : EndsAccepted sampleEnv := fun _ _ => ⟨rfl, rfl⟩

set_option maxRecDepth 4000 in
example : allRequested sampleEnv {} C36_ops = true := by decide_cbv

set_option maxRecDepth 4000 in
example : (Conn.history sampleEnv C36_ops).trace.filterMap requestStage =
    [(0, .start), (0, .line), (0, .line), (0, .headers), (0, .headers), (0, .body), (0, .body), (0, .body),
      (0, .body), (0, .body), (0, .body), (0, .body), (0, .body), (0, .complete),
      (1, .start), (1, .line), (1, .line), (1, .headers), (1, .headers), (1, .complete)] := by
  decide_cbv

set_option maxRecDepth 4000 in
example : (Conn.history sampleEnv C36_ops).trace.filterMap responseIndex = [0, 0, 0, 0, 0, 0] := by
  decide_cbv

/-- C36 fails: what follows a chunked request can be reported as its body, after its trailer. -/
theorem C36_body_after_trailer : ∃ (e : Env) (s : Conn), EndsAccepted e ∧ Requested e s ∧ ∃ i j : Nat, i < j ∧
    s.trace[i]? = some (.tx .requestTrailer 0) ∧
    s.trace[j]? = some (.data .requestBodyData 0 (PData.ofBytes (b! "zz\r\n"))) := by
  refine ⟨sampleEnv, Conn.history sampleEnv
    [.open, .request (.data (b! "POST / HTTP/1.1\r\nTransfer-Encoding: chunked\r\n\r\n0\r\nT: 1\r\n\r\nzz\r\n"))],
    fun _ _ => ⟨rfl, rfl⟩, .history _ ?_, 6, 8, by omega, ?_, ?_⟩ <;> decide_cbv

/-- C36 fails: a callback for the end of a transaction that asks to stop makes the parser run the request
callbacks of the same transaction again, from its start to its completion. -/
theorem C36_end_refused : ∃ (e : Env) (s : Conn), Requested e s ∧ hookRuns .requestStart s.trace = [0, 0] ∧
    hookRuns .requestComplete s.trace = [0, 0] := by
  refine ⟨failingEnv .transactionComplete .stop, Conn.history (failingEnv .transactionComplete .stop)
    [.open, .request (.data (b! "GET / HTTP/1.1\r\nA: b\r\n\r\nGE")),
      .response (.data (b! "HTTP/1.1 200 OK\r\nContent-Length: 0\r\n\r\n")),
      .request (.data (b! "T / HTTP/1.1\r\nA: b\r\n\r\n")), .close],
    .history _ ?_, ?_, ?_⟩ <;> decide_cbv

/-- C36 fails: a callback for the completion of a request that asks for data is followed by body data of the
same request. -/
theorem C36_completion_refused : ∃ (e : Env) (s : Conn), Requested e s ∧ ∃ i j : Nat, i < j ∧
    s.trace[i]? = some (.tx .requestComplete 0) ∧
    s.trace[j]? = some (.data .requestBodyData 0 (PData.ofBytes (b! "zz\r\n"))) := by
  refine ⟨failingEnv .requestComplete .data, Conn.history (failingEnv .requestComplete .data)
    [.open, .request (.data (b! "GET / HTTP/1.1\r\nA: b\r\n\r\n")), .request (.data (b! "zz\r\n"))],
    .history _ ?_, 5, 7, by omega, ?_, ?_⟩ <;> decide_cbv

/-- C36 fails: when a connection is closed within the headers of a request, the callback for the trailer is
run and the one for the headers is not. -/
theorem C36_headers_cut : ∃ (e : Env) (s : Conn), EndsAccepted e ∧ Requested e s ∧
    hookRuns .requestTrailer s.trace = [0] ∧ hookRuns .requestHeaders s.trace = [] := by
  refine ⟨sampleEnv, Conn.history sampleEnv [.open, .request (.data (b! "GET / HTTP/1.1\r\nA: b\r\n")), .close],
    fun _ _ => ⟨rfl, rfl⟩, .history _ ?_, ?_, ?_⟩ <;> decide_cbv

/-- C48 (and C36) fail when two responses come before the end of a request: the rest of its body is reported
for the next transaction, which never started, and its own transaction is never completed. -/
theorem C48_response_ahead : ∃ (e : Env) (s : Conn), EndsAccepted e ∧ Reachable e s ∧ ∃ i j : Nat, i < j ∧
    s.trace[i]? = some (.data .requestBodyData 0 (PData.ofBytes (b! "ab"))) ∧
    s.trace[j]? = some (.data .requestBodyData 1 (PData.ofBytes (b! "cd"))) ∧
    hookRuns .requestStart s.trace = [0] ∧ hookRuns .requestComplete s.trace = [] := by
  refine ⟨sampleEnv, Conn.history sampleEnv
    [.open, .request (.data (b! "POST / HTTP/1.1\r\nContent-Length: 4\r\n\r\nab")),
      .response (.data (b! "HTTP/1.1 200 OK\r\nContent-Length: 0\r\n\r\nHTTP/1.1 200 OK\r\nContent-Length: 0\r\n\r\n")),
      .request (.data (b! "cd"))],
    fun _ _ => ⟨rfl, rfl⟩, .history _ ?_, 6, 19, by omega, ?_, ?_, ?_, ?_⟩ <;> decide_cbv

end Props

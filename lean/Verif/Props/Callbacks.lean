/-
C73: callbacks belong to the side that is fed and to the transactions it works on.
-/
import Verif.Lemmas.OwnRespCalls
import Verif.Lemmas.OrderOps
import Verif.Lemmas.Isolation
import Verif.Props.Interim

namespace Props

open Model Spec

theorem ownReq_start {e : Env} {s : Conn} (hs : Reachable e s) : OwnReqs s.trace s.txs.request s :=
  ⟨rfl, Nat.le_refl _, (reachable_side hs).base, [], by simp, by simp⟩

theorem ownResp_start {e : Env} {s : Conn} (hs : Reachable e s) : OwnResps s.trace s.txs.response s :=
  ⟨rfl, Nat.le_refl _, (reachable_side hs).base, [], by simp, by simp⟩

/-- C73, requests. Feeding (or closing) the request side runs callbacks of requests only (and that for the end of a
transaction), and only for the transactions from the one that was current before the call to the one that is current after
it. -/
theorem C73_request_call {e : Env} {s : Conn} (hs : Reachable e s) (op : Op) (ho : RequestCall op) :
    ∃ evs, (op.after e s).trace = s.trace ++ evs ∧
      RunsOnly requestCallback s.txs.request (op.after e s).txs.request evs := by
  cases op with
  | request c => exact (requestData_owns e c.toPData s (ownReq_start hs)).events
  | requestClose =>
    have h0 : OwnReqs s.trace s.txs.request (M.setReq Half.markClosed s).2 := (ownReq_start hs).setReq (.inl rfl)
    exact (requestData_owns e {} _ h0).events
  | _ => exact ho.elim

/-- C73, responses. -/
theorem C73_response_call {e : Env} {s : Conn} (hs : Reachable e s) (op : Op) (ho : ResponseCall op) :
    ∃ evs, (op.after e s).trace = s.trace ++ evs ∧
      RunsOnly responseCallback s.txs.response (op.after e s).txs.response evs := by
  cases op with
  | response c => exact (responseData_owns c.toPData s (ownResp_start hs)).events
  | _ => exact ho.elim

/-- C73, the other operations: none but closing runs a callback. -/
theorem C73_quiet (e : Env) (s : Conn) (op : Op) (h1 : ¬ RequestCall op) (h2 : ¬ ResponseCall op) (h3 : op ≠ .close) :
    (op.after e s).trace = s.trace := by
  cases op with
  | «open» =>
    show (openConn s).2.trace = _
    unfold openConn
    show (if _ then s else _ : Conn).trace = _
    split <;> rfl
  | removeTx i => rfl
  | askRequest => rfl
  | askResponse => rfl
  | close => exact absurd rfl h3
  | request c => exact absurd trivial h1
  | requestClose => exact absurd trivial h1
  | response c => exact absurd trivial h2

/-- Since `old` only callbacks for the end of transactions have been run. -/
def EndsOnly (old : List Event) (s : Conn) : Prop := ∃ js : List Nat, s.trace = old ++ js.map (Event.tx .transactionComplete)

theorem flushAll_ends {old : List Event} (e : Env) (is : List Nat) : Keeps (EndsOnly old) Any (flushAll e is) := by
  induction is with
  | nil => exact Keeps.pure
  | cons i is ih =>
    unfold flushAll flushOne
    refine Keeps.bind (F := Any) (Keeps.bind (F := Any) (Keeps.attempt (F := Any) (Keeps.runTxHook fun s h => ?_)) fun _ _ =>
      Keeps.when fun _ => Keeps.modify fun s h => h) fun _ _ => ih
    obtain ⟨js, hj⟩ := h
    exact ⟨js ++ [i], by simp [hj]⟩

theorem bind_snd_pure {α β : Type} (m : M α) (b : β) (s : Conn) : ((m >>= fun _ => pure b : M β) s).2 = (m s).2 := by
  show (match m s with | (.ok a, s) => _ | (.error e, s) => _ : Except Err β × Conn).2 = _
  rcases m s with ⟨r, s'⟩
  cases r <;> rfl

/-- C73, closing: first the callbacks of the request side, then those of the response side, then those for the end of
the transactions that are left. -/
theorem C73_close {e : Env} {s : Conn} (hs : Reachable e s) :
    ∃ evs evs' hi hi', ∃ js : List Nat,
      (Op.close.after e s).trace = s.trace ++ evs ++ evs' ++ js.map (Event.tx .transactionComplete) ∧
      RunsOnly requestCallback s.txs.request hi evs ∧ RunsOnly responseCallback s.txs.response hi' evs' := by
  have hb := (reachable_side hs).base
  generalize hs1 : ({ s with req := s.req.markClosed, resp := s.resp.markClosed } : Conn) = s1
  have h0 : OwnReqs s.trace s.txs.request s1 := by
    subst hs1
    exact ⟨rfl, Nat.le_refl _, ⟨hb.1, hb.2, hb.3⟩, [], by simp, by simp⟩
  have h1 := requestData_owns e {} s1 h0
  have hresp : (requestData e {} s1).2.txs.response = s.txs.response := by
    rw [(requestData_sameResp e {} s1).index, ← hs1]
  obtain ⟨evs, h2, h3⟩ := h1.events
  have hrun : Op.close.after e s = ((do
      let a ← requestData e {}
      let b ← responseData e {}
      let s ← M.state
      M.when e.cfg.flushIncomplete (flushAll e s.txs.incomplete)
      pure (a, b) : M (Option StreamState × Option StreamState)) s1).2 := by
    subst hs1
    show (((closeConn e) >>= fun _ => pure none : M (Option StreamState)) s).2 = _
    rw [bind_snd_pure]
    rfl
  have hb2 := h1.base
  rw [hrun]
  rcases hq : requestData e {} s1 with ⟨r, s2⟩
  rw [hq] at h2 h3 hresp hb2
  cases r with
  | error x =>
    rw [M.bind_error hq]
    exact ⟨evs, [], _, 0, [], by rw [List.append_nil, List.map_nil, List.append_nil]; exact h2, h3, by intro _ h; cases h⟩
  | ok a =>
    rw [M.bind_ok hq]
    have h4 : OwnResps s2.trace s.txs.response s2 := ⟨rfl, Nat.le_of_eq hresp.symm, hb2, [], by simp, by simp⟩
    have h5 := responseData_owns (e := e) {} s2 h4
    obtain ⟨evs', h6, h7⟩ := h5.events
    rcases hp : responseData e {} s2 with ⟨r', s3⟩
    rw [hp] at h6 h7
    cases r' with
    | error x =>
      rw [M.bind_error hp]
      exact ⟨evs, evs', _, _, [], by rw [List.map_nil, List.append_nil, ← show s2.trace = s.trace ++ evs from h2]; exact h6, h3, h7⟩
    | ok b =>
      rw [M.bind_ok hp]
      have h8 : Keeps (EndsOnly s3.trace) Any (do
          let s ← M.state
          M.when e.cfg.flushIncomplete (flushAll e s.txs.incomplete)
          pure (a, b) : M (Option StreamState × Option StreamState)) :=
        Keeps.bind_state fun s _ => Keeps.bind (F := Any) (Keeps.when fun _ => flushAll_ends e _) fun _ _ => Keeps.pure
      obtain ⟨js, h9⟩ := (h8 s3 ⟨[], by simp⟩).1
      exact ⟨evs, evs', _, _, js, by rw [h9, h6, h2], h3, h7⟩

/-- Two requests, the first of them answered in part. -/
def halfAnswered : List Op :=
  [.request (.data (b! "GET / HTTP/1.1\r\nHost: a\r\n\r\nPUT / HTTP/1.1\r\nHost: a\r\nContent-Length: 2\r\n\r\nx")),
   .response (.data (b! "HTTP/1.1 200 OK\r\nContent-Length: 2\r\n\r\ny"))]

set_option maxRecDepth 8000 in
/-- Case for C73: the state is reachable, and calls on both sides and closing run callbacks there. -/
example : Reachable sampleEnv (Conn.history sampleEnv halfAnswered) ∧
    RequestCall (.request (.data (b! "x"))) ∧ ResponseCall (.response (.data (b! "y"))) := by
  exact ⟨.history _ (by decide_cbv), trivial, trivial⟩

set_option maxRecDepth 8000 in
example : ∀ s s', Conn.history sampleEnv halfAnswered = s → (Op.request (.data (b! "x"))).after sampleEnv s = s' →
    (s'.trace.drop s.trace.length).map requestCallback = List.replicate 7 (some 1) ∧ s.txs.request = 1 ∧ s'.txs.request = 2 := by
  rintro _ _ rfl rfl
  refine ⟨?_, ?_, ?_⟩ <;> decide_cbv

set_option maxRecDepth 8000 in
example : ∀ s s', Conn.history sampleEnv halfAnswered = s → (Op.response (.data (b! "y"))).after sampleEnv s = s' →
    (s'.trace.drop s.trace.length).map responseCallback = List.replicate 4 (some 0) ∧ s.txs.response = 0 ∧ s'.txs.response = 1 := by
  rintro _ _ rfl rfl
  refine ⟨?_, ?_, ?_⟩ <;> decide_cbv

end Props

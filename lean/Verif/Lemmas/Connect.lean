/-
CONNECT requests: the request side.
-/
import Verif.Lemmas.SegStages
import Verif.Spec.Connect

namespace Model

open M Spec Props

instance : KnownMethods connectMethods where
  facts := by decide +kernel

/-- One call. -/
theorem ask_rounds {e : Env} {s s1 s2 : Conn} {b : Bytes} {k : Nat} {st : StreamState} (hb : b ≠ [])
    (hst : s.req.status ≠ .stop ∧ s.req.status ≠ .error ∧ s.req.status ≠ .tunnel ∧ s.req.status ≠ .closed)
    (hbuf : s.req.buffered ≤ e.cfg.fieldLimit) (r1 : Rounds (requestStep e) k (requestFed b s) s1)
    (h2 : requestStep e s1 = (.ok (some st), s2)) : requestData e (.ofBytes b) s = (.ok (some st), s2) := by
  rw [requestData_data hb hst.1 hst.2.1 hst.2.2.1]
  have hok : ReqOK e (requestFed b s) := ⟨toPData_wf (.data b), rfl, Nat.zero_le _, fun h => absurd h hst.2.2.2, hbuf⟩
  have hk : k < 16 * (b.length + 2 * s.req.buf.length + 2) := by
    have := (request_rounds e r1 hok).2
    have := reqMeasure_lt_rounds (requestFed b s)
    have hx : requestRounds (requestFed b s) = 16 * (b.length + 2 * s.req.buf.length + 2) := by
      unfold requestRounds
      rw [show (requestFed b s).input.len = b.length from toPData_len (.data b)]
      rfl
    omega
  obtain ⟨N, hN⟩ : ∃ N, 16 * (b.length + 2 * s.req.buf.length + 2) = k + (N + 1) :=
    ⟨16 * (b.length + 2 * s.req.buf.length + 2) - k - 1, by omega⟩
  rw [hN, requestLoop_rounds _ r1]
  exact requestLoop_some (by omega) h2

/-- The response is awaited. -/
theorem step_other {e : Env} {s0 : Conn} (s : Conn) (h : Half) (t : Tx) (evs : List Event) (done rest : Bytes) (q : Nat)
    (hg : s0.input.isGap = false) (h1 : handleRequestState e s0 = (.error (.status .dataOther), rq s h t evs (win done rest q))) :
    requestStep e s0 = (.ok (some (if rest = [] then .data else .dataOther)),
      rq s { h with status := if rest = [] then .data else .dataOther } t evs (win done rest q)) := by
  rw [requestStep_rc (by rw [hg]; rfl) (M.attempt_error h1)]
  unfold requestStepTail
  rw [rq_state_bind]
  dsimp only
  unfold requestAfterStep
  rw [rq_state_bind, rq_input, win_isEmpty]
  cases rest <;> rfl

theorem _root_.Spec.Negotiates.live {s : Conn} {t : Tx} (h : Negotiates s t) :
    s.req.status ≠ .stop ∧ s.req.status ≠ .error ∧ s.req.status ≠ .tunnel ∧ s.req.status ≠ .closed := by
  rcases h.status with h | h <;> rw [h] <;> decide

theorem _root_.Spec.Negotiates.buffered {s : Conn} {t : Tx} (h : Negotiates s t) (n : Nat) : s.req.buffered ≤ n := by
  unfold Half.buffered
  rw [h.buf, h.header]
  exact Nat.zero_le _

/-- The head of a CONNECT request is read, in the middle of a call. -/
theorem rounds_connect {e : Env} (hw : Willing e) {s : Conn} (hb : BetweenRequests s) {r : Request} (hr : r.Connects)
    (hlim : r.line.length + 2 ≤ e.cfg.fieldLimit)
    (hroom : s.txs.get s.txs.request = none → s.txs.map.length < e.cfg.maxTx) (early : Bytes)
    (hf : r.headers = [] → early.head? ≠ some 32) {done : Bytes} {q : Nat} (hi : s.input = win done (r.render ++ early) q) :
    ∃ s1 s' t, Rounds (requestStep e) 4 s s1 ∧
      requestStep e s1 = (.ok (some (if early = [] then .data else .dataOther)), s') ∧
      s'.req.bytesConsumed = (done ++ r.render).length ∧ s'.trace = s.trace ++ connectCallbacks r s.txs.request ∧
      Negotiates s' t ∧ RecordsConnect t s.txs.request r ∧ Unanswered t ∧ s'.txs.request = s.txs.request ∧
      s'.txs.response = s.txs.response ∧ (∀ j, j ≠ s.txs.request → s'.txs.get j = s.txs.get j) ∧
      s'.resp = s.resp ∧ s'.responseDataOtherAtTxEnd = s.responseDataOtherAtTxEnd := by
  have hren : r.render = r.line ++ [13, 10] ++ renderBlock r.headers := by
    simp [Request.render, hr.noBody, Body.render]
  have hren' : r.render ++ early = r.line ++ [13, 10] ++ (renderBlock r.headers ++ early) := by
    rw [hren, List.append_assoc]
  obtain ⟨h, t, q', r4, h1, h2, h3, h4, h5, h6, h7, h8⟩ := rounds_fields hw hr.wellFormed hb (done := done) (rest := early)
    (q := q) (hi.trans (by rw [hren'])) hlim hroom (fun h0 c hc => by
      rintro rfl
      exact hf h0 (by simpa using hc))
  have hm : Method.new r.method = .connect := by
    obtain ⟨m, hm⟩ := hr.wellFormed.method
    obtain ⟨h1, -⟩ := KnownMethods.facts _ hm
    simp only [connectMethods, List.mem_singleton, Prod.mk.injEq] at hm
    rw [h1, hm.2]
  have h9 := step_other (e := e) (s0 := rq (noted s) h t (connectCallbacks r s.txs.request)
      (win (done ++ (r.line ++ [13, 10] ++ renderBlock r.headers)) early q')) (noted s)
    { h with state := .connectWaitResponse, status := .dataOther } t (connectCallbacks r s.txs.request) _ early q' rfl (by
      rw [hrs (st := .connectCheck) h1]
      show requestConnectCheck e _ = _
      unfold requestConnectCheck
      rw [rq_tx_bind, if_pos (by rw [h3.methodNumber]; exact hm), rq_setReq_bind]
      rfl)
  refine ⟨_, _, t, r4, h9, ?_, rfl, ?_, ?_, h3.unanswered, rfl, rfl, ?_, rfl, rfl⟩
  · show h.bytesConsumed = _
    rw [h8, hren]
  · refine ⟨rfl, h2.buf, h2.header, h2.receiver, ?_, rq_get _ _ _ _ _, ?_, ?_⟩
    · show (if early = [] then StreamState.data else .dataOther) = _ ∨ _
      split
      · exact .inl rfl
      · exact .inr rfl
    · exact .inl ((Txs.get_set _ _ _ _).trans ((if_neg (by show s.txs.request + 1 ≠ s.txs.request; omega)).trans
        (hb.beyond (s.txs.request + 1) (by omega))))
    · intro j (hj : s.txs.request + 1 < j)
      exact (Txs.get_set _ _ _ _).trans ((if_neg (by show j ≠ s.txs.request; omega)).trans (hb.beyond j (by omega)))
  · obtain ⟨p, hp⟩ := hr.wellFormed.protocol
    refine ⟨h3.index, h3.line, h3.method, h3.methodNumber.trans hm, h3.uri, h3.protocol, ?_, h3.notProtocol09, h5, ?_, h3.encoding,
      h4, h7⟩
    · rw [h3.protocolNumber, (protocol_facts _ hp).1]
      exact hp
    · rw [h3.coding, hr.noBody]; rfl
  · intro j hj
    exact (Txs.get_set _ _ _ _).trans (if_neg hj)

/-- The head of a CONNECT request is read. -/
theorem call_connect {e : Env} (hw : Willing e) {s : Conn} (hb : BetweenRequests s) {r : Request} (hr : r.Connects)
    (hlim : r.line.length + 2 ≤ e.cfg.fieldLimit)
    (hroom : s.txs.get s.txs.request = none → s.txs.map.length < e.cfg.maxTx) (early : Bytes)
    (hf : r.headers = [] → early.head? ≠ some 32) :
    ∃ s' t, requestData e (.ofBytes (r.render ++ early)) s = (.ok (some (if early = [] then .data else .dataOther)), s') ∧
      s'.req.bytesConsumed = r.render.length ∧ s'.trace = s.trace ++ connectCallbacks r s.txs.request ∧
      Negotiates s' t ∧ RecordsConnect t s.txs.request r ∧ Unanswered t ∧ s'.txs.request = s.txs.request ∧
      s'.txs.response = s.txs.response ∧ (∀ j, j ≠ s.txs.request → s'.txs.get j = s.txs.get j) ∧
      s'.resp = (if s.resp.status = .dataOther then { s.resp with status := .data } else s.resp) ∧
      s'.responseDataOtherAtTxEnd = s.responseDataOtherAtTxEnd := by
  have hst : s.req.status ≠ .stop ∧ s.req.status ≠ .error ∧ s.req.status ≠ .tunnel ∧ s.req.status ≠ .closed := by
    rcases hb.status with h | h | h | h <;> rw [h] <;> decide
  have hne : r.render ++ early ≠ [] := by simp [Request.render]
  have hb1 : BetweenRequests (requestFed (r.render ++ early) s) :=
    ⟨hb.state, hb.buf, hb.header, hb.receiver, hb.status, hb.next, hb.beyond⟩
  obtain ⟨s1, s', t, r4, h9, c1, c2, c3, c4, c5, c6, c7, c8, c9, c10⟩ := rounds_connect hw hb1 hr hlim hroom early hf (done := []) (q := 0) rfl
  refine ⟨s', t, ask_rounds hne hst (by
    unfold Half.buffered
    rw [hb.buf, hb.header]
    exact Nat.zero_le _) r4 h9, c1, c2, c3, c4, c5, c6, c7, c8, c9, c10⟩

/-- More data from the client while the response is awaited. -/
theorem call_early {e : Env} {s : Conn} (hs : Txs.Sorted s.txs.map) {t : Tx} (h : Negotiates s t) (hn : NotAnswered t) {b : Bytes} (hb : b ≠ []) :
    ∃ s', requestData e (.ofBytes b) s = (.ok (some .dataOther), s') ∧ s'.req.bytesConsumed = 0 ∧ s'.trace = s.trace ∧
      Negotiates s' t ∧ s'.txs = s.txs ∧
      s'.resp = (if s.resp.status = .dataOther then { s.resp with status := .data } else s.resp) ∧
      s'.responseDataOtherAtTxEnd = s.responseDataOtherAtTxEnd := by
  have h9 := step_other (e := e) (s0 := requestFed b s) (requestFed b s) (requestFed b s).req t [] [] b 0 rfl (by
      rw [hrs (s := requestFed b s) (st := .connectWaitResponse) h.state]
      show requestConnectWaitResponse e _ = _
      have hself : rq (requestFed b s) (requestFed b s).req t [] (win [] b 0) = requestFed b s :=
        rq_self (s := requestFed b s) hs h.current _ rfl
      rw [hself]
      unfold requestConnectWaitResponse
      have hg : requestTx e (.status .error) (requestFed b s) = (.ok t, requestFed b s) := requestTx_some h.current
      rw [M.bind_ok hg, if_pos (by rcases hn with hn | hn <;> rw [hn] <;> decide)]
      rfl)
  rw [if_neg hb] at h9
  refine ⟨_, ask_rounds hb h.live (h.buffered _) (.zero _) h9, rfl, by simp [rq, requestFed],
    ⟨h.state, h.buf, h.header, h.receiver, .inr rfl, rq_get _ _ _ _ _, ?_, ?_⟩, ?_, rfl, rfl⟩
  · have : (s.txs.set s.txs.request t).get (s.txs.request + 1) = s.txs.get (s.txs.request + 1) :=
      (Txs.get_set _ _ _ _).trans (if_neg (by omega))
    show (s.txs.set s.txs.request t).get (s.txs.request + 1) = none ∨ (s.txs.set s.txs.request t).get (s.txs.request + 1) = _
    rw [this]
    exact h.next
  · intro j (hj : s.txs.request + 1 < j)
    exact (Txs.get_set _ _ _ _).trans ((if_neg (by show j ≠ s.txs.request; omega)).trans (h.beyond j hj))
  · show s.txs.set s.txs.request t = s.txs
    unfold Txs.set
    rw [Txs.put_self _ _ _ hs h.current]

end Model

/-
An exchange of HTTP/0.9.
-/
import Verif.Spec.Simple
import Verif.Lemmas.SegRun
import Verif.Lemmas.DownloadRun

namespace Model

open M Spec Props

theorem simple_noLf {r : SimpleRequest} (h : r.WellFormed) : (10 : UInt8) ∉ r.line := by
  intro h1
  unfold SimpleRequest.line at h1
  rcases List.mem_append.mp h1 with h1 | h1
  · exact h.method.2.1 _ h1 (by decide)
  · rcases List.mem_cons.mp h1 with h1 | h1
    · revert h1; decide
    · exact h.uri.2.1 _ h1 (by decide)

theorem simple_chomp {r : SimpleRequest} (h : r.WellFormed) : chomp (r.line ++ [13, 10]) = r.line := by
  unfold chomp
  refine dropLastWhile_append ?_ (by simp)
  intro c hc
  have h2 : r.line.getLast? = r.uri.getLast? := by
    unfold SimpleRequest.line
    rw [show r.method ++ 32 :: r.uri = (r.method ++ [32]) ++ r.uri from by simp, getLast?_append_ne h.uri.1]
  rw [h2] at hc
  have h3 := h.uri.2.1 c (List.mem_of_mem_getLast? hc)
  have h1 : ∀ c : UInt8, ¬ Blank c → (c == 10 || c == 13) = false := by decide +kernel
  exact h1 c h3

theorem simple_notIgnorable {r : SimpleRequest} (h : r.WellFormed) (sp : Personality) :
    isLineIgnorable sp (r.line ++ [13, 10]) = false := by
  cases hm : r.method with
  | nil => exact absurd hm h.method.1
  | cons c cs =>
    have : r.line ++ [13, 10] = c :: (cs ++ 32 :: r.uri ++ [13, 10]) := by simp [SimpleRequest.line, hm]
    rw [this]
    exact notIgnorable _ _ (h.method.2.1 c (by rw [hm]; simp))

theorem simple_read (e : TxEnv) (t : Tx) {r : SimpleRequest} (h : r.WellFormed) :
    t.readRequestLine e r.line =
      { t with
        requestLine := some r.line
        requestMethod := some r.method
        requestMethodNumber := Method.new r.method
        requestUri := some r.uri
        isProtocol09 := true
        requestProtocolNumber := .v0_9 } := by
  have hb : Blanks [32] := by intro c hc; rw [List.mem_singleton.1 hc]; decide
  have hn : Blanks [] := by intro c hc; cases hc
  have := C56_request_line_09 e t [] r.method [32] r.uri [] hn h.method.1 h.method.2.1 hb (by simp) h.uri.1 h.uri.2.1 hn
    (fun _ => by simp [h.method.2.2, h.uri.2.2])
  have e1 : ([] ++ r.method ++ [32] ++ (r.uri ++ []) : Bytes) = r.line := by simp [SimpleRequest.line]
  rw [e1] at this
  rw [this]
  simp [reportedMethod, leadStatus]

theorem simple_rest {r : SimpleRequest} (hr : r.WellFormed) {p rem : Bytes} (hb : p ++ rem = r.render) (hrem : rem ≠ []) :
    ∃ x, rem = x ++ [10] ∧ (10 : UInt8) ∉ x ∧ (10 : UInt8) ∉ p := by
  unfold SimpleRequest.render at hb
  have h1 : rem.getLast? = some 10 := by
    have h2 := congrArg List.getLast? hb
    rw [getLast?_append_ne hrem] at h2
    rw [h2]
    simp
  obtain ⟨x, hx⟩ := List.getLast?_eq_some_iff.mp h1
  rw [hx, ← List.append_assoc, show r.line ++ [13, 10] = (r.line ++ [13]) ++ [10] from by simp] at hb
  have h3 := List.append_inj_left' hb rfl
  have h4 : (10 : UInt8) ∉ p ++ x := by
    rw [h3]
    intro h4
    rcases List.mem_append.mp h4 with h4 | h4
    · exact simple_noLf hr h4
    · revert h4; decide
  exact ⟨x, hx, fun hm => h4 (List.mem_append_right _ hm), fun hm => h4 (List.mem_append_left _ hm)⟩

theorem simple_line {e : Env} (hw : Willing e) {r : SimpleRequest} (hr : r.WellFormed) (s : Conn) (h : Half) (t : Tx)
    (evs : List Event) (rem : Bytes) (q : Nat) (hst : h.state = .line) (hb : h.buf ++ rem = r.render)
    (hrem : rem ≠ []) (hh : h.header = none) (ha : Alive h) (hlim : r.line.length + 2 ≤ e.cfg.fieldLimit)
    (hp : t.parsedUri = none) :
    ∃ raw u st fl a b,
      requestStep e (rq s h t evs (win [] rem q)) = (.ok none,
        rq s { h with buf := [], bytesConsumed := rem.length, state := .protocol, statePrevious := .protocol }
          { t with
            requestLine := some r.line
            requestMethod := some r.method
            requestMethodNumber := Method.new r.method
            requestUri := some r.uri
            isProtocol09 := true
            requestProtocolNumber := .v0_9
            parsedUriRaw := raw, parsedUri := u, responseStatusExpectedNumber := st, flags := fl
            partialNormalizedUri := a, completeNormalizedUri := b }
          (evs ++ [.tx .requestUriNormalize s.txs.request, .tx .requestLine s.txs.request])
          (win rem [] q)) := by
  generalize ht1 : ({ t with
            requestLine := some r.line
            requestMethod := some r.method
            requestMethodNumber := Method.new r.method
            requestUri := some r.uri
            isProtocol09 := true
            requestProtocolNumber := .v0_9 } : Tx) = t1
  obtain ⟨raw, u, st, fl, h1⟩ := parseRequestLine_wf hw t1 r.uri (by rw [← ht1]) (by rw [← ht1]; exact hp)
  generalize ht2 : ({ t1 with
    parsedUriRaw := some raw, parsedUri := some u
    responseStatusExpectedNumber := st, flags := fl } : Tx) = t2 at h1
  obtain ⟨a, b, h2⟩ := storeNormalizedUri_wf hw t2
  refine ⟨some raw, some u, st, fl, a, b, ?_⟩
  have key : handleRequestState e (rq s h t evs (win [] rem q)) = (.ok (),
      rq s { h with buf := [], bytesConsumed := rem.length, state := .protocol }
        { t2 with partialNormalizedUri := a, completeNormalizedUri := b }
        (evs ++ [.tx .requestUriNormalize s.txs.request, .tx .requestLine s.txs.request])
        (win rem [] q)) := by
    rw [hrs (st := .line) hst]
    show requestLine e _ = _
    unfold requestLine
    have htl : takeTillLf rem = .ok [] rem := by
      obtain ⟨x, hx, hn, -⟩ := simple_rest hr hb hrem
      rw [hx]
      have := takeTillLf_line (x := x) (rest := []) hn
      simpa using this
    rw [rq_state_bind, rq_input, win_asSlice, htl]
    dsimp only
    have hcons : (win [] rem q).consume rem.length = win rem [] q := by
      have := win_consume [] rem [] q
      rwa [List.append_nil, List.nil_append] at this
    rw [rq_setReq_bind, rq_consume_bind, hcons, rq_req, hb]
    unfold requestLineComplete checkRequestBufferLimit SimpleRequest.render
    rw [M.bind_bind, rq_state_bind, rq_req]
    rw [if_neg (by
      unfold Half.buffered
      dsimp only
      rw [hh]
      simp
      omega), M.pure_bind_run]
    rw [if_neg (by simp), rq_tx_bind, simple_notIgnorable hr, simple_chomp hr, simple_read _ _ hr, ht1]
    rw [if_neg (by simp), rq_put_bind]
    unfold stateRequestLine
    rw [onRequest_rq _ _ _ _ _ _ _ _ _ h1, rq_state_bind, rq_request, rq_hook_bind _ _ _ _ _ hw.callbacks,
      rq_hook_bind _ _ _ _ _ hw.callbacks, rq_tx_bind, h2]
    dsimp only
    rw [rq_put_bind, rq_setReq, List.append_assoc]
    rfl
  have := rq_round s _ _ _ _ (by rfl) key ha.1 (by simp)
  rw [this, ← ht2, ← ht1]

theorem simple_protocol {e : Env} (s : Conn) (h : Half) (t : Tx) (evs : List Event) (done : Bytes) (q : Nat)
    (hst : h.state = .protocol) (ha : Alive h) (h9 : t.isProtocol09 = true) :
    requestStep e (rq s h t evs (win done [] q)) = (.ok none,
      rq s { h with state := .finalize, statePrevious := .finalize } t evs (win done [] q)) := by
  have key : handleRequestState e (rq s h t evs (win done [] q)) = (.ok (),
      rq s { h with state := .finalize } t evs (win done [] q)) := by
    rw [hrs (st := .protocol) hst]
    show requestProtocol e _ = _
    unfold requestProtocol
    rw [rq_tx_bind, rq_state_bind]
    rw [if_neg (by rw [h9]; simp), rq_input, win_asSlice, if_neg (by simp)]
    rfl
  exact rq_round s _ _ _ _ (by rfl) key ha.1 (by simp)

theorem simple_finalize {e : Env} (hcb : CallbacksOK e) (s : Conn) (h : Half) (t : Tx) (evs : List Event)
    (done : Bytes) (q : Nat) (hst : h.state = .finalize) (ha : Alive h) (hr : h.receiver = none)
    (hp : t.requestProgress ≠ .complete) (hb : t.requestHasBody = false) (h9 : t.isProtocol09 = true)
    (hrp : t.responseProgress ≠ .complete) :
    requestStep e (rq s h t evs (win done [] q)) = (.ok none,
      over s { h with state := .ignoreDataAfterHttp09, statePrevious := .ignoreDataAfterHttp09 }
        { t with requestProgress := .complete } (evs ++ [.tx .requestComplete s.txs.request]) (win done [] q)) := by
  refine over_round s { h with state := .ignoreDataAfterHttp09 } _ _ _ (by rfl) ?_ ha.1 (by simp)
  rw [hrs (st := .finalize) hst]
  show requestFinalize e _ = _
  unfold requestFinalize
  rw [rq_state_bind, rq_input, win_isGap, if_neg (by simp), rq_req, if_neg ha.2, win_asSlice, if_pos rfl]
  generalize ht' : ({ t with requestProgress := .complete } : Tx) = t'
  have hc' : t'.isComplete = false := by rw [← ht']; simp [Tx.isComplete, hrp]
  have h9' : t'.isProtocol09 = true := by rw [← ht']; exact h9
  have h2 : completeRequest e t (rq s h t evs (win done [] q)) = (.ok (),
      rq s h t' (evs ++ [.tx .requestComplete s.txs.request]) (win done [] q)) := by
    unfold completeRequest
    rw [hb]
    refine (M.when_false_bind _ _ _).trans ?_
    rw [rq_modify_bind, rq_state_bind, rq_request, rq_hook_bind _ _ _ _ _ hcb, rq_finalizeClear_none _ _ _ _ _ hr, ← ht']
  unfold stateRequestComplete
  rw [rq_tx_bind, show (t.requestProgress != .complete) = true from by simpa using hp]
  rw [M.bind_ok (show M.when true (completeRequest e t) _ = _ from h2), rq_tx_bind, rq_setReq_bind, rq_state_bind, rq_request,
    h9']
  have h3 : ∀ evs' h', finalizeTx e s.txs.request (rq s h' t' evs' (win done [] q)) = (.ok (), rq s h' t' evs' (win done [] q)) := by
    intro evs' h'
    unfold finalizeTx
    rw [rq_state_bind, rq_get]
    dsimp only
    rw [hc']
    rfl
  rw [M.bind_ok (h3 _ _)]
  unfold requestNext
  have h4 : ∀ evs' h', ((rq s h' t' evs' (win done [] q)).txs).requestNext e.cfg.txAutoDestroy =
      { s.txs.set s.txs.request t' with request := s.txs.request + 1 } := by
    intro evs' h'
    unfold Txs.requestNext Txs.checkFree
    rw [rq_request, rq_get]
    dsimp only
    rw [hc']
    split <;> rfl
  show (Except.ok (), ({ rq s _ _ _ (win done [] q) with connFlags := _, txs := _ } : Conn)) = _
  rw [h4]
  rfl

/-! ### Data after the line -/

/-- What a round does in which the request side ignores what it is given. -/
structure Ignored (s s' : Conn) : Prop where
  state : s'.req.state = .ignoreDataAfterHttp09
  receiver : s'.req.receiver = none
  status : s'.req.status = .data
  buf : s'.req.buf = s.req.buf
  resp : s'.resp = s.resp
  request : s'.txs.request = s.txs.request
  response : s'.txs.response = s.txs.response
  others : ∀ j, j ≠ s.txs.request → s'.txs.get j = s.txs.get j
  sorted : Txs.Sorted s.txs.map → Txs.Sorted s'.txs.map
  blocked : s'.responseDataOtherAtTxEnd = s.responseDataOtherAtTxEnd
  trace : s'.trace = s.trace
  flags : s'.connFlags = if s.input.isEmpty then s.connFlags else setFlag s.connFlags ConnFlag.HTTP_0_9_EXTRA

theorem ignore_step {e : Env} {s : Conn} (hst : s.req.state = .ignoreDataAfterHttp09) (hr : s.req.receiver = none)
    (hgap : s.input.isGap = false) : ∃ s', requestStep e s = (.ok (some .data), s') ∧ Ignored s s' := by
  generalize hs1 : ({ s with
    connFlags := if s.input.isEmpty then s.connFlags else setFlag s.connFlags ConnFlag.HTTP_0_9_EXTRA
    input := s.input.consume s.input.len
    req := { s.req with bytesConsumed := (s.input.consume s.input.len).position } } : Conn) = s1
  have h1 : handleRequestState e s = (.error (.status .data), s1) := by
    rw [hrs hst, ← hs1]
    show requestIgnoreDataAfterHttp09 s = _
    unfold requestIgnoreDataAfterHttp09
    rw [M.bind_state]
    cases hem : s.input.isEmpty <;> rfl
  have hg : (s.input.isGap && !requestGapState s.req.state) = false := by rw [hgap]; rfl
  have hr1 : s1.req.receiver = none := by rw [← hs1]; exact hr
  have h2 : requestStep e s = (.ok (some .data), { s1 with
      input := s1.input.callbackData.2, txs := (s1.txs.requestMut e.cfg.maxTx).2, req := { s1.req with status := .data } }) := by
    rw [requestStep_rc hg (M.attempt_error h1)]
    unfold requestStepTail
    rw [M.bind_state]
    dsimp only
    unfold requestAfterStep
    have h3 : ∃ r, M.attempt (requestReceiverSendData e) s1 = (.ok r, { s1 with
        input := s1.input.callbackData.2, txs := (s1.txs.requestMut e.cfg.maxTx).2 }) := by
      cases hq : s1.txs.requestMut e.cfg.maxTx with
      | mk o txs =>
      cases o with
      | some t =>
        refine ⟨_, M.attempt_ok (a := ()) ?_⟩
        unfold requestReceiverSendData
        have : requestTx e (.status .error) { s1 with input := s1.input.callbackData.2 } =
            (.ok t, { s1 with input := s1.input.callbackData.2, txs := txs }) := by
          unfold requestTx
          rw [show ({ s1 with input := s1.input.callbackData.2 } : Conn).txs.requestMut e.cfg.maxTx = (some t, txs) from hq]
        rw [M.bind_state, M.bind_modify, M.bind_ok this, hr1]
        rfl
      | none =>
        refine ⟨_, M.attempt_error (x := .error) ?_⟩
        unfold requestReceiverSendData
        have : requestTx e (.status .error) { s1 with input := s1.input.callbackData.2 } =
            (.error (.status .error), { s1 with input := s1.input.callbackData.2, txs := txs }) := by
          unfold requestTx
          rw [show ({ s1 with input := s1.input.callbackData.2 } : Conn).txs.requestMut e.cfg.maxTx = (none, txs) from hq]
        rw [M.bind_state, M.bind_modify]
        exact M.bind_error this
    obtain ⟨r, h3⟩ := h3
    rw [M.bind_ok h3]
    rfl
  refine ⟨_, h2, ?_⟩
  subst hs1
  unfold Txs.requestMut Txs.entry
  cases hq : s.txs.get s.txs.request with
  | some t => exact ⟨hst, hr, rfl, rfl, rfl, rfl, rfl, fun _ _ => rfl, id, rfl, rfl, rfl⟩
  | none =>
    dsimp only
    by_cases hx : s.txs.map.length ≥ e.cfg.maxTx
    · rw [if_pos hx]
      exact ⟨hst, hr, rfl, rfl, rfl, rfl, rfl, fun _ _ => rfl, id, rfl, rfl, rfl⟩
    · rw [if_neg hx]
      refine ⟨hst, hr, rfl, rfl, rfl, rfl, rfl, ?_, fun h => Txs.sorted_put _ _ _ h, rfl, rfl, rfl⟩
      intro j hj
      exact (Txs.get_set _ _ _ _).trans (if_neg hj)

/-! ### The line, in pieces -/

/-- The parser, when it has read the bytes `p` of the line. -/
structure Asking (s0 : Conn) (p : Bytes) (s : Conn) : Prop where
  request : s.txs.request = s0.txs.request
  response : s.txs.response = s0.txs.response
  resp : s.resp = s0.resp
  others : ∀ j, j ≠ s0.txs.request → s.txs.get j = s0.txs.get j
  blocked : s.responseDataOtherAtTxEnd = s0.responseDataOtherAtTxEnd
  sorted : Txs.Sorted s.txs.map
  flags : s.connFlags = s0.connFlags
  header : s.req.header = none
  receiver : s.req.receiver = none
  buf : s.req.buf = p
  line : p = [] ∧ s = s0 ∨
    p ≠ [] ∧ s.req.state = .line ∧ s.req.status = .data ∧
      s.txs.get s.txs.request = some { index := s.txs.request, requestProgress := .line } ∧
      s.trace = s0.trace ++ [.tx .requestStart s0.txs.request]

/-- The parser, when the line has been read and nothing of the answer. -/
structure Asked09 (s0 : Conn) (r : SimpleRequest) (s : Conn) : Prop where
  state : s.req.state = .ignoreDataAfterHttp09
  receiver : s.req.receiver = none
  status : s.req.status = .data
  buf : s.req.buf = []
  resp : s.resp = s0.resp
  request : s.txs.request = s0.txs.request + 1
  response : s.txs.response = s0.txs.response
  others : ∀ j, j ≠ s0.txs.request → j ≠ s0.txs.request + 1 → s.txs.get j = s0.txs.get j
  blocked : s.responseDataOtherAtTxEnd = s0.responseDataOtherAtTxEnd
  sorted : Txs.Sorted s.txs.map
  trace : s.trace = s0.trace ++ simpleCallbacks s0.txs.request
  flags : s0.txs.request ≤ s0.txs.response → s.connFlags = s0.connFlags
  tx : ∃ t, s.txs.get s0.txs.request = some t ∧ RecordsSimple t s0.txs.request r ∧ Unanswered t

/-- The line goes on. -/
theorem line_goes {e : Env} (hw : Willing e) {r : SimpleRequest} (hr : r.WellFormed)
    (hlim : r.line.length + 2 ≤ e.cfg.fieldLimit) {s0 s : Conn} {h : Half} {evs : List Event} {p b more : Bytes}
    (hp : p ++ b ++ more = r.render) (hb : b ≠ []) (hst : h.state = .line) (ha : Alive h) (hbuf : h.buf = p)
    (hh : h.header = none) (hrc : h.receiver = none)
    (hreq : s.txs.request = s0.txs.request) (hrsp : s.txs.response = s0.txs.response) (hresp : s.resp = s0.resp)
    (hoth : ∀ j, j ≠ s0.txs.request → s.txs.get j = s0.txs.get j)
    (hblk : s.responseDataOtherAtTxEnd = s0.responseDataOtherAtTxEnd) (hso : Txs.Sorted s.txs.map)
    (hfl : s.connFlags = s0.connFlags)
    (htr : s.trace ++ evs = s0.trace ++ [.tx .requestStart s0.txs.request]) :
    ∃ k s1 s2, k ≤ 3 ∧ Rounds (requestStep e) k (rq s h { index := s.txs.request, requestProgress := .line } evs (win [] b 0)) s1 ∧
      requestStep e s1 = (.ok (some .data), s2) ∧
      (more ≠ [] → Asking s0 (p ++ b) s2) ∧ (more = [] → Asked09 s0 r s2) := by
  have hlen : p.length + b.length + more.length = r.line.length + 2 := by
    have := congrArg List.length hp
    simpa [SimpleRequest.render, Nat.add_assoc] using this
  by_cases hm : more = []
  · subst hm
    rw [List.append_nil] at hp
    obtain ⟨raw, u, st, fl, x, y, h1⟩ := simple_line hw hr s h { index := s.txs.request, requestProgress := .line } evs b 0 hst
      (by rw [hbuf]; exact hp) hb hh ha hlim rfl
    generalize hh1 : ({ h with
      buf := [], bytesConsumed := b.length, state := .protocol, statePrevious := .protocol } : Half) = g1 at h1
    generalize ht1 : ({ ({ index := s.txs.request, requestProgress := .line } : Tx) with
            requestLine := some r.line
            requestMethod := some r.method
            requestMethodNumber := Method.new r.method
            requestUri := some r.uri
            isProtocol09 := true
            requestProtocolNumber := .v0_9
            parsedUriRaw := raw, parsedUri := u, responseStatusExpectedNumber := st, flags := fl
            partialNormalizedUri := x, completeNormalizedUri := y } : Tx) = t1 at h1
    generalize hev1 : evs ++ [.tx .requestUriNormalize s.txs.request, .tx .requestLine s.txs.request] = evs1 at h1
    have h2 := simple_protocol (e := e) s g1 t1 evs1 b 0 (by rw [← hh1]) (by rw [← hh1]; exact ha) (by rw [← ht1])
    have h3 := simple_finalize hw.callbacks s { g1 with state := .finalize, statePrevious := .finalize } t1 evs1 b 0 rfl
      (by rw [← hh1]; exact ha) (by rw [← hh1]; exact hrc) (by rw [← ht1]; simp) (by rw [← ht1]; rfl) (by rw [← ht1])
      (by rw [← ht1]; simp)
    obtain ⟨s2, h4, hi⟩ := ignore_step (e := e)
      (s := over s { g1 with state := .ignoreDataAfterHttp09, statePrevious := .ignoreDataAfterHttp09 }
        { t1 with requestProgress := .complete } (evs1 ++ [.tx .requestComplete s.txs.request]) (win b [] 0)) rfl
      (by show g1.receiver = none; rw [← hh1]; exact hrc) rfl
    refine ⟨3, _, s2, Nat.le_refl _, .next h1 (.next h2 (.next h3 (.zero _))), h4, fun h => absurd rfl h, fun _ => ?_⟩
    have hq : (over s { g1 with state := .ignoreDataAfterHttp09, statePrevious := .ignoreDataAfterHttp09 }
        { t1 with requestProgress := .complete } (evs1 ++ [.tx .requestComplete s.txs.request]) (win b [] 0)).txs.request =
        s0.txs.request + 1 := by rw [← hreq]; rfl
    have hget : ∀ j, j ≠ s0.txs.request + 1 → s2.txs.get j =
        if j = s.txs.request then some { t1 with requestProgress := .complete } else s.txs.get j := by
      intro j hj
      rw [hi.others j (by rw [hq]; exact hj)]
      exact Txs.get_set _ _ _ _
    refine ⟨hi.state, hi.receiver, hi.status, ?_, hi.resp.trans hresp, hi.request.trans hq, hi.response.trans hrsp, ?_,
      hi.blocked.trans hblk, hi.sorted (Txs.sorted_put _ _ _ hso), ?_, ?_, ?_⟩
    · rw [hi.buf, ← hh1]; rfl
    · intro j hj hj'
      rw [hget j hj', hreq, if_neg hj, hoth j hj]
    · rw [hi.trace]
      show s.trace ++ (evs1 ++ _) = _
      rw [← hev1, ← List.append_assoc, ← List.append_assoc, htr, hreq]
      simp [simpleCallbacks]
    · intro hle
      refine hi.flags.trans ((if_pos ?_).trans ((if_neg ?_).trans hfl))
      · show (win b [] 0).isEmpty = true
        rw [win_isEmpty]
        rfl
      · rw [hreq, hrsp]
        omega
    · refine ⟨_, (hget _ (by omega)).trans (if_pos hreq.symm), ?_, ?_⟩
      · rw [← ht1]
        refine ⟨hreq, rfl, rfl, ?_, rfl, rfl, rfl, rfl, rfl, rfl, rfl⟩
        intro m hm
        exact (method_facts _ hm).1
      · rw [← ht1]; rfl
  · have hn : (10 : UInt8) ∉ b := by
      obtain ⟨x, -, -, h3⟩ := simple_rest hr hp hm
      intro h
      exact h3 (List.mem_append_right _ h)
    obtain ⟨inp, h1⟩ := pause_line (e := e) s h { index := s.txs.request, requestProgress := .line } evs [] b 0 hst ha hrc hn (by
      unfold Half.buffered
      rw [hbuf, hh]
      simp
      omega)
    refine ⟨0, _, _, Nat.zero_le _, .zero _, h1, fun _ => ?_, fun h => absurd h hm⟩
    refine ⟨hreq, hrsp, hresp, ?_, hblk, Txs.sorted_put _ _ _ hso, hfl, hh, hrc, ?_, .inr ⟨by simp [hb], hst, rfl, ?_, ?_⟩⟩
    · intro j hj
      rw [← hoth j hj]
      exact (Txs.get_set _ _ _ _).trans (if_neg (by rw [hreq]; exact hj))
    · show h.buf ++ b = _
      rw [hbuf]
    · exact (Txs.get_set _ _ _ _).trans (if_pos rfl)
    · show s.trace ++ evs = _
      rw [htr]

/-- A call with a piece of the line. -/
theorem line_call {e : Env} (hw : Willing e) {r : SimpleRequest} (hr : r.WellFormed)
    (hlim : r.line.length + 2 ≤ e.cfg.fieldLimit) {s0 s : Conn} (hb0 : BetweenRequests s0) (hn0 : s0.resp.status ≠ .dataOther)
    (hroom : s0.txs.get s0.txs.request = none → s0.txs.map.length < e.cfg.maxTx)
    {p b more : Bytes} (hp : p ++ b ++ more = r.render) (hb : b ≠ []) (h : Asking s0 p s) :
    ∃ s', requestData e (.ofBytes b) s = (.ok (some .data), s') ∧
      (more ≠ [] → Asking s0 (p ++ b) s') ∧ (more = [] → Asked09 s0 r s') := by
  have hst : s.req.status ≠ .stop ∧ s.req.status ≠ .error ∧ s.req.status ≠ .tunnel ∧ s.req.status ≠ .closed := by
    rcases h.line with ⟨-, rfl⟩ | ⟨-, -, h2, -⟩
    · rcases hb0.status with h | h | h | h <;> rw [h] <;> decide
    · rw [h2]; decide
  rw [requestData_data hb hst.1 hst.2.1 hst.2.2.1]
  have hresp : (requestFed b s).resp = s0.resp := by
    show (if s.resp.status = .dataOther then _ else _) = _
    rw [h.resp, if_neg hn0]
  have key : ∃ k s1 s2, k ≤ 4 ∧ Rounds (requestStep e) k (requestFed b s) s1 ∧
      requestStep e s1 = (.ok (some .data), s2) ∧
      (more ≠ [] → Asking s0 (p ++ b) s2) ∧ (more = [] → Asked09 s0 r s2) := by
    rcases h.line with ⟨rfl, rfl⟩ | ⟨hne, h1, h2, h3, h4⟩
    · have r1 := round_idle hw.callbacks (s := requestFed b s) hb0.state hst.2.2.1 hb0.next (done := []) (rest := b) (q := 0) rfl
        hb hroom
      obtain ⟨k, s1, s2, hk, hr1, hs2, hA, hB⟩ := line_goes hw hr hlim (s0 := s) (s := noted (requestFed b s))
        (h := { (requestFed b s).req with contentLength := none, bodyDataLeft := none, state := .line, statePrevious := .line })
        (evs := [.tx .requestStart s.txs.request]) hp hb rfl ⟨hst.2.2.1, hst.2.2.2⟩ hb0.buf hb0.header hb0.receiver
        rfl rfl hresp (fun _ _ => rfl) rfl h.sorted rfl rfl
      exact ⟨k + 1, s1, s2, by omega, .next r1 hr1, hs2, hA, hB⟩
    · have e1 : requestFed b s = rq (requestFed b s) (requestFed b s).req
          { index := (requestFed b s).txs.request, requestProgress := .line } [] (win [] b 0) := by
        have e3 : (requestFed b s).txs.set s.txs.request { index := s.txs.request, requestProgress := .line } = s.txs := by
          have := Txs.put_self s.txs.request _ s.txs.map h.sorted h3
          unfold Txs.set
          rw [show (requestFed b s).txs = s.txs from rfl, this]
        unfold rq
        rw [List.append_nil]
        show _ = ({ requestFed b s with txs := (requestFed b s).txs.set s.txs.request _, input := _ } : Conn)
        rw [show (requestFed b s).txs.request = s.txs.request from rfl, e3]
        rfl
      obtain ⟨k, s1, s2, hk, hr1, hs2, hA, hB⟩ := line_goes hw hr hlim (s0 := s0) (s := requestFed b s)
        (h := (requestFed b s).req) (evs := []) hp hb h1 ⟨hst.2.2.1, hst.2.2.2⟩ h.buf h.header h.receiver
        h.request h.response hresp h.others h.blocked h.sorted h.flags (by rw [List.append_nil]; exact h4)
      exact ⟨k, s1, s2, by omega, by rw [e1]; exact hr1, hs2, hA, hB⟩
  obtain ⟨k, s1, s2, hk, hr1, hs2, hA, hB⟩ := key
  refine ⟨s2, ?_, hA, hB⟩
  obtain ⟨N, hN⟩ : ∃ N, 16 * (b.length + 2 * s.req.buf.length + 2) = k + (N + 1) :=
    ⟨16 * (b.length + 2 * s.req.buf.length + 2) - k - 1, by omega⟩
  rw [hN, requestLoop_rounds _ hr1]
  exact requestLoop_some (by omega) hs2

/-! ### The answer -/

/-- The parser, when these pieces of the answer have been read; `extra`: more data has come from the client. -/
structure Served (s0 : Conn) (r : SimpleRequest) (fed : List Bytes) (extra : Bool) (s : Conn) : Prop where
  state : s.req.state = .ignoreDataAfterHttp09
  receiver : s.req.receiver = none
  status : s.req.status = .data
  buf : s.req.buf = []
  request : s.txs.request = s0.txs.request + 1
  response : s.txs.response = s0.txs.request
  others : ∀ j, j ≠ s0.txs.request → j ≠ s0.txs.request + 1 → s.txs.get j = s0.txs.get j
  blocked : s.responseDataOtherAtTxEnd = false
  sorted : Txs.Sorted s.txs.map
  trace : s.trace = s0.trace ++ simpleCallbacks s0.txs.request ++ simpleAnswer s0.txs.request fed
  flags : s.connFlags = if extra then setFlag s0.connFlags ConnFlag.HTTP_0_9_EXTRA else s0.connFlags
  answering : fed = [] ∧ BetweenResponses s ∨
    fed ≠ [] ∧ s.resp.state = .bodyIdentityStreamClose ∧ s.resp.status = .data ∧ s.resp.receiver = none ∧ s.resp.buf = [] ∧
      s.resp.header = none
  tx : ∃ t, s.txs.get s0.txs.request = some t ∧ RecordsSimple t s0.txs.request r ∧
    t.responseEntityLen = fed.flatten.length ∧ t.responseContentEncodingProcessing = .none ∧ t.responseProgress ≠ .complete

theorem setFlag_again (f m : Flags) : setFlag (setFlag f m) m = setFlag f m := by
  unfold setFlag
  rw [Nat.or_assoc, Nat.or_self]

/-- A call with more data from the client. -/
theorem served_request {e : Env} {s0 : Conn} {r : SimpleRequest} {fed : List Bytes} {extra : Bool} {s : Conn} {b : Bytes}
    (hb : b ≠ []) (h : Served s0 r fed extra s) :
    ∃ s', requestData e (.ofBytes b) s = (.ok (some .data), s') ∧ Served s0 r fed true s' := by
  rw [requestData_data hb (by rw [h.status]; decide) (by rw [h.status]; decide) (by rw [h.status]; decide)]
  have hresp : (requestFed b s).resp = s.resp := by
    show (if s.resp.status = .dataOther then _ else _) = _
    rw [if_neg]
    rcases h.answering with ⟨-, hb⟩ | ⟨-, -, h1, -⟩
    · rcases hb.status with h | h | h <;> rw [h] <;> decide
    · rw [h1]; decide
  obtain ⟨s', h1, hi⟩ := ignore_step (e := e) (s := requestFed b s) h.state h.receiver rfl
  refine ⟨s', requestLoop_some (by omega) h1, ?_⟩
  have hget : s'.txs.get s0.txs.request = s.txs.get s0.txs.request :=
    hi.others _ (by show _ ≠ s.txs.request; rw [h.request]; omega)
  have hrs : s'.resp = s.resp := hi.resp.trans hresp
  refine ⟨hi.state, hi.receiver, hi.status, hi.buf.trans h.buf, hi.request.trans h.request, hi.response.trans h.response, ?_,
    hi.blocked.trans h.blocked, hi.sorted h.sorted, hi.trace.trans h.trace, ?_, ?_, by rw [hget]; exact h.tx⟩
  · intro j hj hj'
    rw [hi.others j (by show _ ≠ s.txs.request; rw [h.request]; exact hj')]
    exact h.others j hj hj'
  · rw [hi.flags, if_neg (by
      show ¬ (win [] b 0).isEmpty = true
      rw [win_isEmpty]
      simpa using hb)]
    show setFlag s.connFlags _ = _
    rw [h.flags, if_pos rfl]
    split
    · rw [setFlag_again]
    · rfl
  · rcases h.answering with ⟨h1, h2⟩ | ⟨h1, h2⟩
    · exact .inl ⟨h1, by rw [hrs]; exact h2.state, by rw [hrs]; exact h2.buf, by rw [hrs]; exact h2.header,
        by rw [hrs]; exact h2.receiver, by rw [hrs]; exact h2.status, hi.blocked.trans h.blocked⟩
    · exact .inr ⟨h1, by rw [hrs]; exact h2⟩

/-- An answer begins. -/
theorem simple_begins {e : Env} (hcb : CallbacksOK e) {s : Conn} (hb : BetweenResponses s) {t : Tx}
    (hg : s.txs.get s.txs.response = some t) (hp : t.requestProgress ≠ .notStarted) (h9 : t.isProtocol09 = true)
    {done rest : Bytes} {q : Nat} (hi : s.input = win done rest q) (hne : rest ≠ []) :
    responseStep e s = (.ok none, rp s
      { s.resp with
        contentLength := none, bodyDataLeft := none, state := .bodyIdentityStreamClose
        statePrevious := .bodyIdentityStreamClose }
      { t with
        responseTransferCoding := .identity, responseContentEncodingProcessing := .none
        responseProgress := .body } [.tx .responseStart s.txs.response] s.input) := by
  have hst : s.resp.status ≠ .tunnel := by rcases hb.status with h | h | h <;> rw [h] <;> decide
  refine rp_round s { s.resp with contentLength := none, bodyDataLeft := none, state := .bodyIdentityStreamClose }
    { t with
      responseTransferCoding := .identity, responseContentEncodingProcessing := .none
      responseProgress := .body } [.tx .responseStart s.txs.response] s.input
    (by rw [hi]; rfl) ?_ hst (by simp)
  rw [hps hb.state]
  show responseIdle e s = _
  unfold responseIdle
  rw [M.bind_state, if_neg (by
    rw [hi, win_isEmpty]
    simpa using hne), M.bind_ok (responseTx_some hg)]
  rw [show (t.requestProgress == .notStarted) = false from by simpa using hp]
  refine (M.when_false_bind _ _ _).trans ?_
  show stateResponseStart e { s with resp := { s.resp with contentLength := none, bodyDataLeft := none } } = _
  unfold stateResponseStart
  rw [M.bind_ok (responseTx_some (by exact hg)), M.bind_state, if_pos h9]
  have := rp_hook s { s.resp with contentLength := none, bodyDataLeft := none, state := .bodyIdentityStreamClose }
      { t with
        responseTransferCoding := .identity, responseContentEncodingProcessing := .none
        responseProgress := .body } [] s.input hcb .responseStart
  rw [show rp s { s.resp with contentLength := none, bodyDataLeft := none, state := .bodyIdentityStreamClose }
      { t with
        responseTransferCoding := .identity, responseContentEncodingProcessing := .none
        responseProgress := .body } [] s.input = _ from by simp only [rp, List.append_nil]; rfl] at this
  exact this

/-- A piece of an answer. -/
theorem simple_piece {e : Env} (hcb : CallbacksOK e) (s : Conn) (h : Half) (t : Tx) (evs : List Event) (b : Bytes)
    (hb : b ≠ []) (hst : h.state = .bodyIdentityStreamClose) (ha : h.status ≠ .closed) (hrc : h.receiver = none)
    (henc : t.responseContentEncodingProcessing = .none) (hlen : t.responseEntityLen + b.length < 2 ^ 64) :
    ∃ n ml inp, responseStep e (rp s h t evs (win [] b 0)) = (.ok (some .data),
      rp s { h with bytesConsumed := n, status := .data }
        { t with responseMessageLen := ml, responseEntityLen := t.responseEntityLen + b.length }
        (evs ++ answerBodyCallbacks s.txs.response b) inp) := by
  have hpos : b.length ≠ 0 := by rw [ne_eq, List.length_eq_zero_iff]; exact hb
  have hcons : (win [] b 0).consume b.length = win b [] 0 := by
    have := win_consume [] b [] 0
    rwa [List.append_nil, List.nil_append] at this
  have h1 := rp_bodyData hcb s h t evs (win [] b 0) (some b) henc hlen
  dsimp only [Option.getD] at h1
  rw [if_neg hb] at h1
  refine ⟨b.length, wrapAdd t.responseMessageLen b.length, _,
    rp_more s { h with bytesConsumed := b.length } _ _ (win b [] 0) rfl ?_ hrc⟩
  rw [hps (st := .bodyIdentityStreamClose) hst]
  show responseBodyIdentityStreamClose e _ = _
  unfold responseBodyIdentityStreamClose responseStreamData
  rw [M.bind_bind, rp_state_bind, rp_input, win_isGap, if_neg (by simp), win_isEmpty, if_neg (by simpa using hpos),
    win_unconsumed, M.bind_bind, M.bind_ok h1, win_len, rp_consume_bind, hcons, rp_state_bind, rp_resp,
    if_neg ha]
  rfl

theorem simpleAnswer_more (k : Nat) (fed : List Bytes) (b : Bytes) :
    simpleAnswer k (fed ++ [b]) = (if fed = [] then [.tx .responseStart k] else simpleAnswer k fed) ++ answerBodyCallbacks k b := by
  unfold simpleAnswer
  rw [if_neg (by simp)]
  cases fed with
  | nil => simp
  | cons a fed => simp

/-- A call with data from the server. -/
theorem served_response {e : Env} (hcb : CallbacksOK e) {s0 : Conn} {r : SimpleRequest} {fed : List Bytes} {extra : Bool} {s : Conn}
    {b : Bytes} (hb : b ≠ []) (hlen : (fed ++ [b]).flatten.length < 2 ^ 64) (h : Served s0 r fed extra s) :
    ∃ s', responseData e (.ofBytes b) s = (.ok (some .data), s') ∧ Served s0 r (fed ++ [b]) extra s' := by
  obtain ⟨t, hg, hrec, hel, henc, hpr⟩ := h.tx
  have hst : s.resp.status ≠ .stop ∧ s.resp.status ≠ .error ∧ s.resp.status ≠ .tunnel ∧ s.resp.status ≠ .closed := by
    rcases h.answering with ⟨-, hb⟩ | ⟨-, -, h1, -⟩
    · rcases hb.status with h | h | h <;> rw [h] <;> decide
    · rw [h1]; decide
  have hfl : (fed ++ [b]).flatten.length = fed.flatten.length + b.length := by simp
  rw [responseData_data hb hst.1 hst.2.1 hst.2.2.1]
  have hgf : (responseFed b s).txs.get (responseFed b s).txs.response = some t := by
    show s.txs.get s.txs.response = _
    rw [h.response]
    exact hg
  have key : ∃ g t' evs, (responseLoop e (16 * (b.length + 2 * s.resp.buf.length + 2)) (responseFed b s) =
        responseLoop e (16 * (b.length + 2 * s.resp.buf.length + 2) - 1) (rp (responseFed b s) g t' evs (win [] b 0)) ∨
      responseFed b s = rp (responseFed b s) g t' evs (win [] b 0)) ∧
      g.state = .bodyIdentityStreamClose ∧ g.status ≠ .closed ∧ g.receiver = none ∧ g.buf = [] ∧ g.header = none ∧
      RecordsSimple t' s0.txs.request r ∧ t'.responseEntityLen = fed.flatten.length ∧
      t'.responseContentEncodingProcessing = .none ∧ t'.responseProgress ≠ .complete ∧
      s.trace ++ evs = s0.trace ++ simpleCallbacks s0.txs.request ++
        (if fed = [] then [.tx .responseStart s0.txs.request] else simpleAnswer s0.txs.request fed) := by
    rcases h.answering with ⟨hf, hbt⟩ | ⟨hf, h1, h2, h3, h4, h5⟩
    · have hbt' : BetweenResponses (responseFed b s) := ⟨hbt.state, hbt.buf, hbt.header, hbt.receiver, hbt.status, hbt.notBlocked⟩
      have r1 := simple_begins hcb hbt' hgf (by rw [hrec.progress]; decide) hrec.protocol09 (done := []) (rest := b) (q := 0) rfl hb
      obtain ⟨N, hN⟩ : ∃ N, 16 * (b.length + 2 * s.resp.buf.length + 2) = N + 1 := ⟨_, rfl⟩
      refine ⟨{ (responseFed b s).resp with
          contentLength := none, bodyDataLeft := none, state := .bodyIdentityStreamClose
          statePrevious := .bodyIdentityStreamClose },
        { t with
          responseTransferCoding := .identity, responseContentEncodingProcessing := .none
          responseProgress := .body }, [.tx .responseStart s.txs.response],
        .inl ?_, rfl, hst.2.2.2, hbt.receiver, hbt.buf, hbt.header, ?_, hel, rfl, by simp, ?_⟩
      · rw [hN, responseLoop_none r1]
        rfl
      · exact ⟨hrec.index, hrec.line, hrec.method, hrec.methodNumber, hrec.uri, hrec.protocol, hrec.protocolNumber,
          hrec.protocol09, hrec.headers, hrec.bodyLength, hrec.progress⟩
      · rw [if_pos hf, h.trace, hf]
        show _ ++ [Event.tx .responseStart s.txs.response] = _
        rw [h.response]
        simp [simpleAnswer]
    · refine ⟨(responseFed b s).resp, t, [], .inr ?_, h1, hst.2.2.2, h3, h4, h5, hrec, hel, henc, hpr, ?_⟩
      · have e3 : s.txs.set s.txs.response t = s.txs := by
          have := Txs.put_self s.txs.response t s.txs.map h.sorted hgf
          unfold Txs.set
          rw [this]
        unfold rp
        rw [List.append_nil]
        show _ = ({ responseFed b s with txs := s.txs.set s.txs.response t, input := _ } : Conn)
        rw [e3]
        rfl
      · rw [if_neg hf, List.append_nil, h.trace]
  obtain ⟨g, t', evs, hloop, g1, g2, g3, g4, g5, hrec', hel', henc', hpr', htr⟩ := key
  obtain ⟨n, ml, inp, r2⟩ := simple_piece hcb (responseFed b s) g t' evs b hb g1 g2 g3 henc' (by rw [hel', ← hfl]; exact hlen)
  have hl : ∀ s', responseStep e (rp (responseFed b s) g t' evs (win [] b 0)) = (.ok (some .data), s') →
      responseLoop e (16 * (b.length + 2 * s.resp.buf.length + 2)) (responseFed b s) = (.ok (some .data), s') := by
    intro s' r2
    rcases hloop with hl | hl
    · rw [hl]
      exact responseLoop_some (by omega) r2
    · rw [hl]
      exact responseLoop_some (by omega) r2
  refine ⟨_, hl _ r2, ?_⟩
  · have hk : (responseFed b s).txs.response = s0.txs.request := h.response
    refine ⟨h.state, h.receiver, h.status, h.buf, h.request, h.response, ?_, h.blocked, Txs.sorted_put _ _ _ h.sorted, ?_, h.flags,
      .inr ⟨by simp, g1, rfl, g3, g4, g5⟩, ?_⟩
    · intro j hj hj'
      rw [← h.others j hj hj']
      exact (Txs.get_set _ _ _ _).trans (if_neg (by rw [hk]; exact hj))
    · show s.trace ++ (evs ++ answerBodyCallbacks (responseFed b s).txs.response b) = _
      rw [← List.append_assoc, htr, simpleAnswer_more, hk]
      simp only [List.append_assoc]
    · refine ⟨_, (Txs.get_set _ _ _ _).trans (if_pos hk.symm), ?_, ?_, henc', hpr'⟩
      · exact ⟨hrec'.index, hrec'.line, hrec'.method, hrec'.methodNumber, hrec'.uri, hrec'.protocol, hrec'.protocolNumber,
          hrec'.protocol09, hrec'.headers, hrec'.bodyLength, hrec'.progress⟩
      · show t'.responseEntityLen + b.length = _
        rw [hfl, hel']

/-! ### The end of the connection -/

/-- After the end of the connection. -/
structure ServedEnd (e : Env) (s0 : Conn) (r : SimpleRequest) (fed : List Bytes) (s : Conn) : Prop where
  trace : s.trace = s0.trace ++ simpleCallbacks s0.txs.request ++ simpleAnswer s0.txs.request fed ++
    if fed = [] then [] else [.tx .responseComplete s0.txs.request, .tx .transactionComplete s0.txs.request]
  removed : fed ≠ [] → e.cfg.txAutoDestroy = true → s.txs.get s0.txs.request = none
  kept : fed = [] ∨ e.cfg.txAutoDestroy = false → ∃ t, s.txs.get s0.txs.request = some t ∧
    RecordsSimple t s0.txs.request r ∧ t.responseEntityLen = fed.flatten.length ∧ (t.responseProgress = .complete ↔ fed ≠ [])

theorem simple_close {e : Env} (hcb : CallbacksOK e) {s : Conn} {h : Half} {t : Tx} {evs : List Event} {inp : PData}
    (hst : h.state = .bodyIdentityStreamClose) (hcl : h.status = .closed) (hrc : h.receiver = none) (hbuf : h.buf = [])
    (hh : h.header = none) (hblk : s.responseDataOtherAtTxEnd = false) (hq : t.requestProgress = .complete)
    (hp : t.responseProgress ≠ .complete) (henc : t.responseContentEncodingProcessing = .none)
    (hlen : t.responseEntityLen < 2 ^ 64) :
    ∃ s' s1 g ml inp', responseData e {} (rp s h t evs inp) = (.ok (some .data), s') ∧ s1.txs = s.txs ∧ s1.trace = s.trace ∧
      AnswersDone e.cfg.txAutoDestroy (answered e.cfg.txAutoDestroy s1 g
        { t with responseMessageLen := ml, responseProgress := .complete }
        (evs ++ [.tx .responseComplete s.txs.response, .tx .transactionComplete s.txs.response]) inp') s' [] := by
  rw [responseData_eq, rp_resp, if_neg (by rw [hcl]; decide), if_neg (by rw [hcl]; decide), if_neg (fun h => h.2 hcl),
    if_neg (by rw [hcl]; decide)]
  generalize hs1 : ({ s with responseDataCounter := wrapAdd s.responseDataCounter (PData.len {}) } : Conn) = s1
  have hk1 : s1.txs = s.txs := by subst hs1; rfl
  have hfed : ({ rp s h t evs inp with
      resp := { h with bytesConsumed := 0 }, input := {}
      responseDataCounter := wrapAdd s.responseDataCounter (PData.len {}) } : Conn) =
      rp s1 { h with bytesConsumed := 0 } t evs {} := by subst hs1; rfl
  generalize hh1 : ({ h with bytesConsumed := 0, state := .finalize, statePrevious := .finalize } : Half) = h1
  have hbuf1 : h1.buf = [] := by rw [← hh1]; exact hbuf
  have hst1 : h1.status = .closed := by rw [← hh1]; exact hcl
  have r1 : responseStep e (rp s1 { h with bytesConsumed := 0 } t evs {}) = (.ok none, rp s1 h1 t evs {}) := by
    have := rp_round (e := e) (s0 := rp s1 { h with bytesConsumed := 0 } t evs {}) s1
      { h with bytesConsumed := 0, state := .finalize } t evs {} rfl ?_
      (by show h.status ≠ _; rw [hcl]; decide) (by simp)
    · rw [this, ← hh1]
    · rw [hps (st := .bodyIdentityStreamClose) hst]
      show responseBodyIdentityStreamClose e _ = _
      unfold responseBodyIdentityStreamClose
      have h4 : responseStreamData e (rp s1 { h with bytesConsumed := 0 } t evs {}) =
          (.ok (), rp s1 { h with bytesConsumed := 0 } t evs {}) := by
        unfold responseStreamData
        rw [rp_state_bind, rp_input, if_neg (by decide), if_pos (by decide)]
        rfl
      rw [M.bind_ok h4, rp_state_bind, rp_resp, if_pos hcl]
      rfl
  obtain ⟨ml, h8⟩ := complete_rp hcb s1 { h1 with buf := [] } t evs {} (by rw [← hh1]; exact hrc)
    (by show h1.status ≠ _; rw [hst1]; decide) (by subst hs1; exact hblk) hq hp henc hlen
  have r2 := answered_round (e := e) (s0 := rp s1 h1 t evs {})
    s1 { h1 with buf := [], state := .idle } _ _ _ rfl (by
      rw [hps (st := .finalize) (by rw [rp_resp, ← hh1])]
      show responseFinalize e _ = _
      unfold responseFinalize
      rw [rp_state_bind, rp_input, if_neg (by decide), rp_resp, if_pos hst1]
      unfold responseFinalizeLine
      rw [rp_state_bind, rp_resp]
      dsimp only
      rw [hbuf1, show decide (([] : Bytes) ≠ []) = false from by simp]
      refine (M.when_false_bind _ _ _).trans ?_
      rw [rp_setResp_bind, show ([] : Bytes) ++ PData.asSlice {} = [] from rfl, if_pos rfl]
      exact h8) (by show h1.status ≠ _; rw [hst1]; decide) (by simp)
  obtain ⟨s', r3, hi, -⟩ := answers_idle_any (e := e) (s := answered e.cfg.txAutoDestroy s1
      { h1 with buf := [], statePrevious := .idle, state := .idle } { t with responseMessageLen := ml, responseProgress := .complete }
      (evs ++ [.tx .responseComplete s1.txs.response, .tx .transactionComplete s1.txs.response])
      {}) (by
    subst hh1
    exact ⟨rfl, rfl, hh, hrc, .inr (.inr rfl), by subst hs1; exact hblk⟩) rfl rfl
  rw [hk1] at hi
  refine ⟨s', s1, _, ml, _, ?_, hk1, by subst hs1; rfl, hi⟩
  have h9 : responseProcess e (rp s1 { h with bytesConsumed := 0 } t evs {}) = (.ok (some .data), s') := by
    unfold responseProcess
    rw [rp_state_bind]
    have : responseEarly e (rp s1 { h with bytesConsumed := 0 } t evs {}) =
        (.ok none, rp s1 { h with bytesConsumed := 0 } t evs {}) := by
      unfold responseEarly
      rw [rp_state_bind, rp_input, if_neg (by decide)]
      rfl
    rw [M.bind_ok this]
    dsimp only
    have hn : responseRounds (rp s1 { h with bytesConsumed := 0 } t evs {}) = 29 + 1 + 1 + 1 := by
      unfold responseRounds
      rw [rp_resp, rp_input]
      dsimp only
      rw [hbuf]
      rfl
    rw [hn, responseLoop_none r1, responseLoop_none r2]
    exact responseLoop_some (by decide) r3
  rw [← hfed] at h9
  exact h9

/-- Nothing has come from the server. -/
theorem idle_close {e : Env} {s : Conn} (hb : BetweenResponses { s with resp := { s.resp with status := .data } })
    (hcl : s.resp.status = .closed) :
    ∃ s' s1, responseData e {} s = (.ok (some .data), s') ∧ s1.txs = s.txs ∧ s1.trace = s.trace ∧
      AnswersDone e.cfg.txAutoDestroy s1 s' [] := by
  rw [responseData_eq, if_neg (by rw [hcl]; decide), if_neg (by rw [hcl]; decide), if_neg (fun h => h.2 hcl),
    if_neg (by rw [hcl]; decide)]
  generalize hs1 : ({ s with
    resp := { s.resp with bytesConsumed := 0 }, input := {}
    responseDataCounter := wrapAdd s.responseDataCounter (PData.len {}) } : Conn) = s1
  obtain ⟨s', r3, hi, -⟩ := answers_idle_any (e := e) (s := s1) (by
    subst hs1
    exact ⟨hb.state, hb.buf, hb.header, hb.receiver, .inr (.inr rfl), hb.notBlocked⟩) (by subst hs1; rfl) (by subst hs1; rfl)
  refine ⟨s', s1, ?_, by subst hs1; rfl, by subst hs1; rfl, hi⟩
  unfold responseProcess
  rw [M.bind_state]
  have : responseEarly e s1 = (.ok none, s1) := by
    unfold responseEarly
    rw [M.bind_state, if_neg (by subst hs1; simp [PData.isGap])]
    rfl
  rw [M.bind_ok this]
  exact responseLoop_some (by unfold responseRounds; omega) r3

theorem served_close {e : Env} (hcb : CallbacksOK e) (hfl : e.cfg.flushIncomplete = false) {s0 : Conn} {r : SimpleRequest}
    {fed : List Bytes} {extra : Bool} {s : Conn} (hlen : fed.flatten.length < 2 ^ 64) (h : Served s0 r fed extra s) :
    ∃ s', closeConn e s = (.ok (some .data, some .data), s') ∧ ServedEnd e s0 r fed s' := by
  obtain ⟨t, hg, hrec, hel, henc, hpr⟩ := h.tx
  unfold closeConn
  rw [M.bind_modify]
  have hq : s.req.markClosed.status = .closed := by
    unfold Half.markClosed
    rw [h.status]
    rfl
  have hp : s.resp.markClosed.status = .closed := by
    unfold Half.markClosed
    rcases h.answering with ⟨-, hb⟩ | ⟨-, -, h1, -⟩
    · rcases hb.status with h | h | h <;> rw [h] <;> rfl
    · rw [h1]; rfl
  generalize hs1 : ({ s with req := s.req.markClosed, resp := s.resp.markClosed } : Conn) = s1
  have hresp1 : s1.resp = s.resp.markClosed := by subst hs1; rfl
  have h1 : ∃ s2, requestData e {} s1 = (.ok (some .data), s2) ∧ s2.resp = s1.resp ∧ s2.trace = s.trace ∧
      s2.txs.get s0.txs.request = some t ∧ s2.txs.response = s0.txs.request ∧ s2.responseDataOtherAtTxEnd = false ∧
      Txs.Sorted s2.txs.map := by
    have hc1 : s1.req.status = .closed := by subst hs1; exact hq
    rw [requestData_eq, if_neg (by rw [hc1]; decide), if_neg (by rw [hc1]; decide), if_neg (fun h => h.2 hc1),
      if_neg (by rw [hc1]; decide), requestProcess_data rfl]
    dsimp only
    rw [if_neg (by rw [hresp1, hp]; decide)]
    obtain ⟨s2, h2, hi⟩ := ignore_step (e := e) (s := { s1 with
      req := { s1.req with bytesConsumed := 0 }, input := {}
      requestChunkCount := s1.requestChunkCount + 1
      requestDataCounter := wrapAdd s1.requestDataCounter (PData.len {}) }) (by subst hs1; exact h.state)
      (by subst hs1; exact h.receiver) rfl
    refine ⟨s2, requestLoop_some (by unfold requestRounds; omega) h2, hi.resp, hi.trace.trans (by subst hs1; rfl), ?_,
      hi.response.trans (by subst hs1; exact h.response), hi.blocked.trans (by subst hs1; exact h.blocked),
      hi.sorted (by subst hs1; exact h.sorted)⟩
    rw [hi.others _ (by subst hs1; show _ ≠ s.txs.request; rw [h.request]; omega)]
    subst hs1
    exact hg
  obtain ⟨s2, h1, h2, h3, h4, h5, h6, h7⟩ := h1
  rw [M.bind_ok h1]
  have key : ∃ s', responseData e {} s2 = (.ok (some .data), s') ∧ ServedEnd e s0 r fed s' := by
    rcases h.answering with ⟨hf, hb⟩ | ⟨hf, g1, g2, g3, g4, g5⟩
    · obtain ⟨s', s3, k1, k2, k3, hi⟩ := idle_close (e := e) (s := s2)
        ⟨by show s2.resp.state = _; rw [h2, hresp1]; exact hb.state, by show s2.resp.buf = _; rw [h2, hresp1]; exact hb.buf,
          by show s2.resp.header = _; rw [h2, hresp1]; exact hb.header,
          by show s2.resp.receiver = _; rw [h2, hresp1]; exact hb.receiver, .inr (.inr rfl), h6⟩ (by rw [h2, hresp1]; exact hp)
      refine ⟨s', k1, ?_, fun hne => absurd hf hne, fun _ => ⟨t, ?_, hrec, hel, ?_⟩⟩
      · rw [hi.trace, k3, h3, h.trace, if_pos hf]
        rfl
      · have : s3.txs.get s0.txs.request = some t := by rw [k2, h4]
        rw [hi.others _ (.inr (.inr ⟨by rw [k2, h5]; rfl, by rw [this]; rfl⟩)), this]
      · exact ⟨fun h => absurd h hpr, fun h => absurd hf h⟩
    · have e2 : s2 = rp s2 s2.resp t [] s2.input := by
        have e3 : s2.txs.set s2.txs.response t = s2.txs := by
          have := Txs.put_self s2.txs.response t s2.txs.map h7 (by rw [h5]; exact h4)
          unfold Txs.set
          rw [this]
        unfold rp
        rw [List.append_nil, e3]
      obtain ⟨s', s3, g, ml, inp', k1, k2, k3, hi⟩ := simple_close (e := e) hcb (s := s2) (h := s2.resp) (t := t) (evs := [])
        (inp := s2.input) (by rw [h2, hresp1]; exact g1) (by rw [h2, hresp1]; exact hp) (by rw [h2, hresp1]; exact g3)
        (by rw [h2, hresp1]; exact g4) (by rw [h2, hresp1]; exact g5) h6 hrec.progress hpr henc (by rw [hel]; exact hlen)
      rw [← e2] at k1
      have hget : s'.txs.get s0.txs.request = if e.cfg.txAutoDestroy then none else
          some { t with responseMessageLen := ml, responseProgress := .complete } := by
        rw [hi.others _ (.inl (by
          show _ < s3.txs.response + 1
          rw [k2, h5]
          omega))]
        show (answeredTxs e.cfg.txAutoDestroy s3.txs _).get _ = _
        rw [k2, ← h5]
        unfold answeredTxs
        cases e.cfg.txAutoDestroy with
        | true =>
          show ((s2.txs.set s2.txs.response _).remove s2.txs.response).get s2.txs.response = _
          rw [Txs.get_remove, if_pos rfl]
          rfl
        | false =>
          show (s2.txs.set s2.txs.response _).get s2.txs.response = _
          rw [Txs.get_set, if_pos rfl]
          rfl
      refine ⟨s', k1, ?_, fun _ ha => by rw [hget, ha]; rfl, fun hk =>
        ⟨{ t with responseMessageLen := ml, responseProgress := .complete }, by rw [hget, hk.resolve_left hf]; rfl, ?_, hel, ?_⟩⟩
      · rw [hi.trace]
        show s3.trace ++ ([] ++ _) ++ _ = _
        rw [k3, h3, h.trace, if_neg hf, h5]
        simp [responseCallbacks]
      · exact ⟨hrec.index, hrec.line, hrec.method, hrec.methodNumber, hrec.uri, hrec.protocol, hrec.protocolNumber,
          hrec.protocol09, hrec.headers, hrec.bodyLength, hrec.progress⟩
      · exact ⟨fun _ => hf, fun _ => rfl⟩
  obtain ⟨s', k1, k2⟩ := key
  refine ⟨s', ?_, k2⟩
  rw [M.bind_ok k1, M.bind_state, hfl]
  rfl

end Model

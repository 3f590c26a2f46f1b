/-
The rounds of the request state machine on a well-formed request.
-/
import Verif.Lemmas.ReqRun
import Verif.Lemmas.ReqMessage
import Verif.Lemmas.ChunkedTokens
import Verif.Lemmas.ConnReqChunked

namespace Model

open M Spec Props

theorem onRequest_rq {e : Env} {α β : Type} (f : Tx → Except Err α × Tx) (g : α → M β) (s : Conn) (h : Half) (t t' : Tx)
    (evs : List Event) (inp : PData) (a : α) (hf : f t = (.ok a, t')) :
    (onRequest e f >>= g) (rq s h t evs inp) = g a (rq s h t' evs inp) := by
  refine M.bind_ok ?_
  unfold onRequest
  rw [rq_tx_bind, hf, rq_put_bind]
  rfl

theorem withRequest_rq {e : Env} {α β : Type} (f : Tx → α × Tx) (g : α → M β) (s : Conn) (h : Half) (t t' : Tx)
    (evs : List Event) (inp : PData) (a : α) (hf : f t = (a, t')) :
    (withRequest e f >>= g) (rq s h t evs inp) = g a (rq s h t' evs inp) := by
  refine M.bind_ok ?_
  unfold withRequest
  rw [rq_tx_bind, hf, rq_put_bind]
  rfl

theorem requestFresh_put {e : Env} {β : Type} (x : Err) (g : Tx → Tx) (f : Unit → M β) (s : Conn)
    (hn : s.txs.get s.txs.request = none ∨ s.txs.get s.txs.request = some { index := s.txs.request })
    (hroom : s.txs.get s.txs.request = none → s.txs.map.length < e.cfg.maxTx) :
    (requestTx e x >>= fun t => putRequest (g t) >>= f) s =
      f () { s with txs := s.txs.set s.txs.request (g { index := s.txs.request }) } := by
  rcases hn with hn | hn
  · have h1 : requestTx e x s = (.ok { index := s.txs.request },
        { s with txs := s.txs.set s.txs.request { index := s.txs.request } }) := by
      unfold requestTx Txs.requestMut Txs.entry
      rw [hn]
      dsimp only
      rw [if_neg (by have := hroom hn; omega)]
    rw [M.bind_ok h1]
    show f () _ = _
    congr 1
    unfold Txs.set
    dsimp only
    rw [Txs.put_put]
  · rw [M.bind_ok (requestTx_some hn)]
    rfl

/-- What is run in a state. -/
def stateFn (e : Env) : State → M Unit
  | .idle => requestIdle e
  | .ignoreDataAfterHttp09 => requestIgnoreDataAfterHttp09
  | .line => requestLine e
  | .protocol => requestProtocol e
  | .headers => requestHeaders e
  | .connectWaitResponse => requestConnectWaitResponse e
  | .connectCheck => requestConnectCheck e
  | .connectProbeData => requestConnectProbeData e
  | .bodyDetermine => requestBodyDetermine e
  | .bodyChunkedData => requestBodyChunkedData e
  | .bodyChunkedLength => requestBodyChunkedLength e
  | .bodyChunkedDataEnd => requestBodyChunkedDataEnd e
  | .bodyIdentity => requestBodyIdentity e
  | .finalize => requestFinalize e
  | .none | .bodyIdentityStreamClose | .bodyIdentityClKnown => fail .error

theorem hrs {e : Env} {s : Conn} {st : State} (h : s.req.state = st) : handleRequestState e s = stateFn e st s := by
  subst h
  unfold handleRequestState stateFn
  rw [M.bind_state]
  cases s.req.state <;> rfl

/-- The stream is neither a tunnel nor closed. -/
def Alive (h : Half) : Prop := h.status ≠ .tunnel ∧ h.status ≠ .closed

/-- A request begins. -/
theorem round_idle {e : Env} (hcb : CallbacksOK e) {s : Conn} (hidle : s.req.state = .idle) (hst : s.req.status ≠ .tunnel)
    (hnext : s.txs.get s.txs.request = none ∨ s.txs.get s.txs.request = some { index := s.txs.request })
    {done rest : Bytes} {q : Nat} (hi : s.input = win done rest q) (hne : rest ≠ [])
    (hroom : s.txs.get s.txs.request = none → s.txs.map.length < e.cfg.maxTx) :
    requestStep e s = (.ok none, rq { s with requestChunkRequestIndex := s.requestChunkCount }
      { s.req with contentLength := none, bodyDataLeft := none, state := .line, statePrevious := .line }
      { index := s.txs.request, requestProgress := .line } [.tx .requestStart s.txs.request] s.input) := by
  refine rq_round { s with requestChunkRequestIndex := s.requestChunkCount }
    { s.req with contentLength := none, bodyDataLeft := none, state := .line }
    { index := s.txs.request, requestProgress := .line } [.tx .requestStart s.txs.request] s.input
    (by rw [hi]; rfl) ?_ hst (by simp)
  rw [hrs hidle]
  show requestIdle e s = _
  unfold requestIdle
  rw [M.bind_state, if_neg (by
    rw [hi, win_isEmpty]
    intro h
    exact hne (by simpa using h.1))]
  unfold requestReset
  rw [M.bind_modify]
  have h1 : stateRequestStart e { s with
        req := { s.req with contentLength := none, bodyDataLeft := none }
        requestChunkRequestIndex := s.requestChunkCount } =
      (.ok (), rq { s with requestChunkRequestIndex := s.requestChunkCount }
        { s.req with contentLength := none, bodyDataLeft := none, state := .line }
        { index := s.txs.request, requestProgress := .line } [.tx .requestStart s.txs.request] s.input) := by
    unfold stateRequestStart
    show (requestTx e _ >>= fun t => putRequest (_ : Tx) >>= _) { s with
        req := { s.req with contentLength := none, bodyDataLeft := none, state := .line }
        requestChunkRequestIndex := s.requestChunkCount } = _
    refine (requestFresh_put _ (fun t => { t with requestProgress := .line }) _ { s with
        req := { s.req with contentLength := none, bodyDataLeft := none, state := .line }
        requestChunkRequestIndex := s.requestChunkCount } hnext hroom).trans ?_
    rw [M.bind_state]
    have := rq_hook { s with requestChunkRequestIndex := s.requestChunkCount }
        { s.req with contentLength := none, bodyDataLeft := none, state := .line }
        { index := s.txs.request, requestProgress := .line } [] s.input hcb .requestStart
    rw [show rq { s with requestChunkRequestIndex := s.requestChunkCount }
        { s.req with contentLength := none, bodyDataLeft := none, state := .line }
        { index := s.txs.request, requestProgress := .line } [] s.input = _ from by simp only [rq, List.append_nil]; rfl] at this
    exact this
  rw [M.bind_ok (M.attempt_ok h1)]
  rfl

/-! The request line. -/

theorem notIgnorable (sp : Personality) {c : UInt8} (cs : Bytes) (hc : ¬ Blank c) :
    isLineIgnorable sp (c :: cs) = false := by
  have h1 : ∀ c : UInt8, ¬ Blank c → isSpace c = false ∧ nomIsSpace c = false ∧ c ≠ 13 ∧ c ≠ 10 := by decide +kernel
  obtain ⟨k1, k2, k3, k4⟩ := h1 c hc
  unfold isLineIgnorable isLineTerminator
  have : isLineWhitespace (c :: cs) = false := by simp [isLineWhitespace, k1]
  rw [this]
  have : isLineEmpty (c :: cs) = false := by simp [isLineEmpty, k3, k4]
  rw [this]
  simp only [Bool.and_false, Bool.false_eq_true, if_false]
  split
  next a b h => cases h; simp [k2]
  next => rfl

theorem line_cons {ms : List (Bytes × Method)} [KnownMethods ms] {r : Request} (h : r.WellFormedIn ms) : ∃ c cs, r.line = c :: cs ∧ ¬ Blank c := by
  obtain ⟨m, hm⟩ := h.method
  obtain ⟨-, -, m1, m2, -⟩ := KnownMethods.facts _ hm
  dsimp only at m1 m2
  cases hr : r.method with
  | nil => exact absurd hr m1
  | cons c cs =>
    refine ⟨c, cs ++ 32 :: (r.uri ++ 32 :: r.protocol), by simp [Request.line, hr], ?_⟩
    exact m2 c (by rw [hr]; simp)

theorem chomp_line {ms : List (Bytes × Method)} [KnownMethods ms] {r : Request} (h : r.WellFormedIn ms) : chomp (r.line ++ [13, 10]) = r.line := by
  obtain ⟨p, hp⟩ := h.protocol
  obtain ⟨-, p1, p2, -⟩ := protocol_facts _ hp
  dsimp only at p1 p2
  unfold chomp
  refine dropLastWhile_append ?_ (by simp)
  · intro c hc
    have h2 : r.line.getLast? = r.protocol.getLast? := by
      unfold Request.line
      rw [show r.method ++ 32 :: (r.uri ++ 32 :: r.protocol) = (r.method ++ 32 :: (r.uri ++ [32])) ++ r.protocol from by simp,
        getLast?_append_ne p1]
    rw [h2] at hc
    have h3 := p2 c (List.mem_of_mem_getLast? hc)
    have h1 : ∀ c : UInt8, ¬ Blank c → (c == 10 || c == 13) = false := by decide +kernel
    exact h1 c h3

theorem line_rest {ms : List (Bytes × Method)} [KnownMethods ms] {r : Request} (hr : r.WellFormedIn ms) {p rem : Bytes} (hb : p ++ rem = r.line ++ [13, 10]) (hrem : rem ≠ []) :
    ∃ x, rem = x ++ [10] ∧ (10 : UInt8) ∉ x ∧ (10 : UInt8) ∉ p := by
  have h1 : rem.getLast? = some 10 := by
    have h2 := congrArg List.getLast? hb
    rw [getLast?_append_ne hrem] at h2
    rw [h2]
    simp
  obtain ⟨x, hx⟩ := List.getLast?_eq_some_iff.mp h1
  rw [hx, ← List.append_assoc, show r.line ++ [13, 10] = (r.line ++ [13]) ++ [10] from by simp] at hb
  have h3 := List.append_inj_left' hb rfl
  have h4 : (10 : UInt8) ∉ p ++ x := by
    rw [h3]
    intro h4
    rcases List.mem_append.mp h4 with h4 | h4
    · exact line_noLf hr h4
    · revert h4; decide
  exact ⟨x, hx, fun hm => h4 (List.mem_append_right _ hm), fun hm => h4 (List.mem_append_left _ hm)⟩

theorem round_line {e : Env} (hw : Willing e) {ms : List (Bytes × Method)} [KnownMethods ms] {r : Request}
    (hr : r.WellFormedIn ms) (s : Conn) (h : Half) (t : Tx) (evs : List Event) (done rem rest : Bytes) (q : Nat) (hst : h.state = .line) (hb : h.buf ++ rem = r.line ++ [13, 10])
    (hrem : rem ≠ []) (hh : h.header = none)
    (ha : Alive h) (hlim : r.line.length + 2 ≤ e.cfg.fieldLimit) (hp : t.parsedUri = none) :
    ∃ raw u st fl a b,
      requestStep e (rq s h t evs (win done (rem ++ rest) q)) = (.ok none,
        rq s { h with
            buf := [], bytesConsumed := (done ++ rem).length, state := .protocol, statePrevious := .protocol }
          { t with
            requestLine := some r.line
            requestMethod := some r.method
            requestMethodNumber := Method.new r.method
            requestUri := some r.uri
            requestProtocol := some r.protocol
            requestProtocolNumber := parseProtocol r.protocol
            parsedUriRaw := raw, parsedUri := u, responseStatusExpectedNumber := st, flags := fl
            partialNormalizedUri := a, completeNormalizedUri := b }
          (evs ++ [.tx .requestUriNormalize s.txs.request, .tx .requestLine s.txs.request])
          (win (done ++ rem) rest q)) := by
  generalize ht1 : ({ t with
            requestLine := some r.line
            requestMethod := some r.method
            requestMethodNumber := Method.new r.method
            requestUri := some r.uri
            requestProtocol := some r.protocol
            requestProtocolNumber := parseProtocol r.protocol } : Tx) = t1
  obtain ⟨raw, u, st, fl, h1⟩ := parseRequestLine_wf hw t1 r.uri (by rw [← ht1]) (by rw [← ht1]; exact hp)
  generalize ht2 : ({ t1 with
    parsedUriRaw := some raw, parsedUri := some u
    responseStatusExpectedNumber := st, flags := fl } : Tx) = t2 at h1
  obtain ⟨a, b, h2⟩ := storeNormalizedUri_wf hw t2
  refine ⟨some raw, some u, st, fl, a, b, ?_⟩
  have key : handleRequestState e (rq s h t evs (win done (rem ++ rest) q)) = (.ok (),
      rq s { h with buf := [], bytesConsumed := (done ++ rem).length, state := .protocol }
        { t2 with partialNormalizedUri := a, completeNormalizedUri := b }
        (evs ++ [.tx .requestUriNormalize s.txs.request, .tx .requestLine s.txs.request])
        (win (done ++ rem) rest q)) := by
    rw [hrs (st := .line) hst]
    show requestLine e _ = _
    unfold requestLine
    have htl : takeTillLf (rem ++ rest) = .ok rest rem := by
      obtain ⟨x, hx, hn, -⟩ := line_rest hr hb hrem
      rw [hx]
      have := takeTillLf_line (x := x) (rest := rest) hn
      simpa using this
    rw [rq_state_bind, rq_input, win_asSlice, htl]
    dsimp only
    rw [rq_setReq_bind, rq_consume_bind, win_consume, rq_req, hb]
    unfold requestLineComplete checkRequestBufferLimit
    rw [M.bind_bind, rq_state_bind, rq_req]
    rw [if_neg (by
      unfold Half.buffered
      dsimp only
      rw [hh]
      simp
      omega), M.pure_bind_run]
    rw [if_neg (by simp), rq_tx_bind]
    obtain ⟨c, cs, hc, hc'⟩ := line_cons hr
    rw [show isLineIgnorable e.cfg.serverPersonality (r.line ++ [13, 10]) = false from by
      rw [hc]; exact notIgnorable _ _ hc', chomp_line hr, readRequestLine_wf _ _ hr, ht1]
    rw [if_neg (by simp), rq_put_bind]
    unfold stateRequestLine
    rw [onRequest_rq _ _ _ _ _ _ _ _ _ h1, rq_state_bind, rq_request, rq_hook_bind _ _ _ _ _ hw.callbacks,
      rq_hook_bind _ _ _ _ _ hw.callbacks, rq_tx_bind, h2]
    dsimp only
    rw [rq_put_bind, rq_setReq, List.append_assoc]
    rfl
  have := rq_round s _ _ _ _ (by rfl) key ha.1 (by simp)
  rw [this, ← ht2, ← ht1]

/-- The header fields begin. -/
theorem round_protocol {e : Env} (s : Conn) (h : Half) (t : Tx) (evs : List Event) (done rest : Bytes) (q : Nat)
    (hst : h.state = .protocol) (hpr : h.statePrevious = .protocol) (ha : Alive h) (h9 : t.isProtocol09 = false) :
    requestStep e (rq s h t evs (win done rest q)) = (.ok none,
      rq s { h with state := .headers, statePrevious := .headers, receiver := some .requestHeaderData }
        { t with requestProgress := .headers } evs (win done rest done.length)) := by
  have key : handleRequestState e (rq s h t evs (win done rest q)) = (.ok (),
      rq s { h with state := .headers } { t with requestProgress := .headers } evs (win done rest q)) := by
    rw [hrs (st := .protocol) hst]
    show requestProtocol e _ = _
    unfold requestProtocol
    rw [rq_tx_bind, rq_state_bind]
    rw [if_pos (by rw [h9]; rfl), rq_put_bind]
    rfl
  have := rq_round_headers s _ _ _ _ (by rfl) key ha.1 rfl (by dsimp only; rw [hpr]; decide) .requestHeaderData (.inl ⟨rfl, rfl⟩)
  rw [this]
  rfl

/-- The header fields of a request. -/
theorem round_headers {e : Env} (hw : Willing e) {ms : List (Bytes × Method)} [KnownMethods ms] {r : Request}
    (hr : r.WellFormedIn ms) (s : Conn) (h : Half) (t : Tx) (evs : List Event) (done x rest : Bytes) (js ls : List HeaderLine) (hjl : r.headers = js ++ ls)
    (hst : h.state = .headers) (hh : h.header.getD [] ++ x = renderBlock ls) (hx : x ≠ []) (hls : ls = [] → h.header.getD [] = [])
    (hrc : h.receiver = some .requestHeaderData) (ha : Alive h) (hp : t.requestProgress = .headers)
    (hside : t.requestHeaderParser.side = .request)
    (ht0 : (t.requestHeaders, t.requestHeaderRepetitions) =
      (fieldsOf js).foldl (fun s h => s.1.store s.2 h) (([], 0) : Headers × Nat))
    (hl : t.requestContentLength = none)
    (hf : Follows ls rest) :
    ∃ fl host port auth ct, requestStep e (rq s h t evs (win done (x ++ rest) done.length)) = (.ok none,
      rq s { h with
          header := none, bytesConsumed := (done ++ x).length, receiver := none
          state := .connectCheck, statePrevious := .connectCheck }
        { t with
          requestHeaders := storedTable HFlag.FIELD_REPEATED (fieldsOf r.headers)
          requestHeaderRepetitions := min 64 (extras (fieldsOf r.headers) (fieldsOf r.headers).length)
          flags := fl, requestTransferCoding := r.body.coding, requestContentLength := r.body.size
          requestHostname := host, requestPortNumber := port, auth := auth, requestContentType := ct
          requestContentEncoding := .none, requestContentEncodingProcessing := .none }
        (evs ++ [.data .requestHeaderData s.txs.request (.ofBytes x), .tx .requestHeaders s.txs.request])
        (win (done ++ x) rest (done ++ x).length)) := by
  obtain ⟨rem, eoh, h1, h2, h3⟩ := parseRequestHeaders_block t ls (fun y hy => hr.headers y (by rw [hjl]; simp [hy])) rest hf hside
  have hstored : (fieldsOf ls).foldl (fun s h => s.1.store s.2 h) (t.requestHeaders, t.requestHeaderRepetitions) =
      (storedTable HFlag.FIELD_REPEATED (fieldsOf r.headers),
        min 64 (extras (fieldsOf r.headers) (fieldsOf r.headers).length)) := by
    rw [ht0, ← List.foldl_append, ← stored_lines _ hr.headers, hjl]
    congr 1
    exact List.map_append.symm
  rw [hstored, ← hh, List.append_assoc] at h1
  rw [← hh, List.append_assoc] at h2 h3
  dsimp only at h1
  have h3 := h3 x hx (fun h0 => by rw [hls h0]; rfl)
  generalize hta : ({ t with
          requestHeaders := storedTable HFlag.FIELD_REPEATED (fieldsOf r.headers)
          requestHeaderRepetitions := min 64 (extras (fieldsOf r.headers) (fieldsOf r.headers).length) } : Tx) = ta at h1
  have hpa : ta.requestProgress = .headers := by rw [← hta]; exact hp
  obtain ⟨fl0, hmulti⟩ : ∃ fl, ∀ h' evs' inp, M.when (s.requestChunkCount != s.requestChunkRequestIndex)
      (modifyRequest e (·.setFlags Flag.MULTI_PACKET_HEAD)) (rq s h' ta evs' inp) =
      (.ok (), rq s h' { ta with flags := fl } evs' inp) := by
    cases s.requestChunkCount != s.requestChunkRequestIndex with
    | false => exact ⟨ta.flags, fun _ _ _ => rfl⟩
    | true => exact ⟨(ta.setFlags Flag.MULTI_PACKET_HEAD).flags, fun h' evs' inp => rq_modify _ _ _ _ _ e _⟩
  obtain ⟨fl, host, port, auth, ct, h4⟩ := processRequestHeaders_wf e.toTxEnv hr { ta with flags := fl0 }
    HFlag.FIELD_REPEATED (by rw [← hta]) (by rw [← hta]; exact hl)
  generalize htb : ({ ta with
      flags := fl, requestTransferCoding := r.body.coding, requestContentLength := r.body.size
      requestHostname := host, requestPortNumber := port, auth := auth, requestContentType := ct } : Tx) = tb at h4
  have h5 := initRequestDecompressors_wf e.cfg hr tb HFlag.FIELD_REPEATED (by rw [← htb, ← hta])
  refine ⟨fl, host, port, auth, ct, ?_⟩
  have key : handleRequestState e (rq s h t evs (win done (x ++ rest) done.length)) = (.ok (),
      rq s { h with
          header := none, bytesConsumed := (done ++ x).length, receiver := none
          state := .connectCheck }
        { tb with requestContentEncoding := .none, requestContentEncodingProcessing := .none }
        (evs ++ [.data .requestHeaderData s.txs.request (.ofBytes x), .tx .requestHeaders s.txs.request])
        (win (done ++ x) rest (done ++ x).length)) := by
    rw [hrs (st := .headers) hst]
    show requestHeaders e _ = _
    unfold requestHeaders
    rw [rq_state_bind, rq_req, if_neg ha.2]
    dsimp only
    rw [rq_input, win_asSlice, rq_setReq_bind, withRequest_rq _ _ _ _ _ _ _ _ _ h1]
    dsimp only
    rw [if_pos h2, h3, rq_consume_bind, win_consume]
    unfold stateRequestHeaders
    rw [M.bind_ok (rq_finalizeClear _ _ _ _ hw.callbacks done x rest .requestHeaderData (by exact hrc)),
      rq_tx_bind, hpa, if_neg (by decide), if_pos (by decide)]
    unfold stateRequestHeadersDone
    rw [rq_state_bind, rq_count, rq_index]
    rw [M.bind_ok (hmulti _ _ _)]
    rw [onRequest_rq _ _ _ _ _ _ _ _ _ h4, rq_request, rq_hook_bind _ _ _ _ _ hw.callbacks, rq_tx_bind, rq_put_bind, h5,
      rq_setReq, List.append_assoc]
    rfl
  have := rq_round s _ _ _ _ (by rfl) key ha.1 (by simp)
  rw [this, ← htb, ← hta]

/-- There is nothing to wait for. -/
theorem round_connectCheck {e : Env} (s : Conn) (h : Half) (t : Tx) (evs : List Event) (done rest : Bytes) (q : Nat)
    (hst : h.state = .connectCheck) (ha : Alive h) (hm : t.requestMethodNumber ≠ .connect) :
    requestStep e (rq s h t evs (win done rest q)) = (.ok none,
      rq s { h with state := .bodyDetermine, statePrevious := .bodyDetermine } t evs (win done rest q)) := by
  refine rq_round s { h with state := .bodyDetermine } t evs (win done rest q) (by rfl) ?_ ha.1 (by simp)
  rw [hrs (st := .connectCheck) hst]
  show requestConnectCheck e _ = _
  unfold requestConnectCheck
  rw [rq_tx_bind, if_neg hm]
  rfl

theorem round_determine_absent {e : Env} (s : Conn) (h : Half) (t : Tx) (evs : List Event) (done rest : Bytes) (q : Nat)
    (hst : h.state = .bodyDetermine) (ha : Alive h) (hc : t.requestTransferCoding = .noBody) :
    requestStep e (rq s h t evs (win done rest q)) = (.ok none,
      rq s { h with state := .finalize, statePrevious := .finalize } t evs (win done rest q)) := by
  refine rq_round s { h with state := .finalize } t evs (win done rest q) (by rfl) ?_ ha.1 (by simp)
  rw [hrs (st := .bodyDetermine) hst]
  show requestBodyDetermine e _ = _
  unfold requestBodyDetermine
  rw [rq_tx_bind, hc]
  rfl

theorem round_determine_empty {e : Env} (s : Conn) (h : Half) (t : Tx) (evs : List Event) (done rest : Bytes) (q : Nat)
    (hst : h.state = .bodyDetermine) (ha : Alive h) (hc : t.requestTransferCoding = .identity)
    (hl : t.requestContentLength = some 0) :
    requestStep e (rq s h t evs (win done rest q)) = (.ok none,
      rq s { h with contentLength := some 0, bodyDataLeft := some 0, state := .finalize, statePrevious := .finalize } t evs
        (win done rest q)) := by
  refine rq_round s { h with contentLength := some 0, bodyDataLeft := some 0, state := .finalize } t evs (win done rest q)
    (by rfl) ?_ ha.1 (by simp)
  rw [hrs (st := .bodyDetermine) hst]
  show requestBodyDetermine e _ = _
  unfold requestBodyDetermine
  rw [rq_tx_bind, hc, hl]
  rfl

theorem round_determine_sized {e : Env} (s : Conn) (h : Half) (t : Tx) (evs : List Event) (done rest : Bytes) (q n : Nat)
    (hst : h.state = .bodyDetermine) (ha : Alive h) (hc : t.requestTransferCoding = .identity)
    (hl : t.requestContentLength = some n) (hn : n ≠ 0) :
    requestStep e (rq s h t evs (win done rest q)) = (.ok none,
      rq s { h with contentLength := some n, bodyDataLeft := some n, state := .bodyIdentity, statePrevious := .bodyIdentity }
        { t with requestProgress := .body } evs (win done rest q)) := by
  refine rq_round s { h with contentLength := some n, bodyDataLeft := some n, state := .bodyIdentity }
    { t with requestProgress := .body } evs (win done rest q) (by rfl) ?_ ha.1 (by simp)
  rw [hrs (st := .bodyDetermine) hst]
  show requestBodyDetermine e _ = _
  unfold requestBodyDetermine
  rw [rq_tx_bind, hc, hl]
  dsimp only [Option.getD]
  rw [if_pos (by omega), rq_put_bind, rq_setReq]

theorem round_determine_chunked {e : Env} (s : Conn) (h : Half) (t : Tx) (evs : List Event) (done rest : Bytes) (q : Nat)
    (hst : h.state = .bodyDetermine) (ha : Alive h) (hc : t.requestTransferCoding = .chunked) :
    requestStep e (rq s h t evs (win done rest q)) = (.ok none,
      rq s { h with state := .bodyChunkedLength, statePrevious := .bodyChunkedLength }
        { t with requestProgress := .body } evs (win done rest q)) := by
  refine rq_round s { h with state := .bodyChunkedLength }
    { t with requestProgress := .body } evs (win done rest q) (by rfl) ?_ ha.1 (by simp)
  rw [hrs (st := .bodyDetermine) hst]
  show requestBodyDetermine e _ = _
  unfold requestBodyDetermine
  rw [rq_tx_bind, hc]
  dsimp only
  rw [rq_put_bind, rq_setReq]

/-! The body. -/

/-- Body data is handed out. -/
theorem rq_bodyData {e : Env} (hcb : CallbacksOK e) (s : Conn) (h : Half) (t : Tx) (evs : List Event) (inp : PData)
    (d : Option Bytes) (hd : d ≠ some []) (henc : t.requestContentEncodingProcessing = .none)
    (hlen : t.requestEntityLen + (d.getD []).length < 2 ^ 64) :
    requestBodyData e d (rq s h t evs inp) = (.ok (), rq s h
      { t with
        requestMessageLen := wrapAdd t.requestMessageLen (d.getD []).length
        requestEntityLen := t.requestEntityLen + (d.getD []).length }
      (evs ++ bodyCallbacks s.txs.request d) inp) := by
  unfold requestBodyData
  rw [rq_tx_bind, rq_put_bind, henc]
  dsimp only
  unfold requestPlainBody
  rw [rq_tx_bind]
  rw [if_neg (by simp; intro _; exact hlen), rq_put_bind]
  unfold requestRunHookBodyData
  rw [rq_tx_bind, if_neg (by
    cases d with
    | none => simp [PData.unconsumed]
    | some x =>
      have : x ≠ [] := fun h => hd (by rw [h])
      simpa [PData.unconsumed, PData.isEmpty, PData.len, PData.asSlice] using this)]
  rw [rq_state_bind, rq_request, rq_emit_bind _ _ _ _ _ hcb, rq_emit _ _ _ _ _ hcb, List.append_assoc]
  have hw : wrapAdd t.requestEntityLen (d.getD []).length = t.requestEntityLen + (d.getD []).length :=
    Nat.mod_eq_of_lt hlen
  dsimp only
  rw [hw]
  rfl

/-- A sized body, all of it. -/
theorem round_identity {e : Env} (hcb : CallbacksOK e) (s : Conn) (h : Half) (t : Tx) (evs : List Event)
    (done content rest : Bytes) (q : Nat) (hst : h.state = .bodyIdentity) (ha : Alive h)
    (hl : h.bodyDataLeft = some content.length) (hne : content ≠ [])
    (henc : t.requestContentEncodingProcessing = .none) (hlen : t.requestEntityLen + content.length < 2 ^ 64) :
    requestStep e (rq s h t evs (win done (content ++ rest) q)) = (.ok none,
      rq s { h with
          bytesConsumed := (done ++ content).length, bodyDataLeft := some 0, state := .finalize, statePrevious := .finalize }
        { t with
          requestMessageLen := wrapAdd (wrapAdd t.requestMessageLen content.length) 0
          requestEntityLen := t.requestEntityLen + content.length }
        (evs ++ (bodyCallbacks s.txs.request (some content) ++ bodyCallbacks s.txs.request none))
        (win (done ++ content) rest q)) := by
  have hpos : content.length ≠ 0 := by rw [ne_eq, List.length_eq_zero_iff]; exact hne
  have key : handleRequestState e (rq s h t evs (win done (content ++ rest) q)) = (.ok (),
      rq s { h with bytesConsumed := (done ++ content).length, bodyDataLeft := some 0, state := .finalize }
        { t with
          requestMessageLen := wrapAdd (wrapAdd t.requestMessageLen content.length) 0
          requestEntityLen := t.requestEntityLen + content.length }
        (evs ++ (bodyCallbacks s.txs.request (some content) ++ bodyCallbacks s.txs.request none))
        (win (done ++ content) rest q)) := by
    rw [hrs (st := .bodyIdentity) hst]
    show requestBodyIdentity e _ = _
    unfold requestBodyIdentity
    rw [rq_state_bind, rq_req, hl]
    dsimp only
    rw [rq_input, win_len, List.length_append, Nat.min_eq_right (by omega), if_neg hpos]
    unfold requestIdentityData
    rw [M.bind_bind, rq_state_bind, rq_input, win_isGap, if_neg (by simp), M.bind_bind]
    rw [M.bind_ok (show inputPrefix content.length (rq s h t evs (win done (content ++ rest) q)) = (.ok content, _) from by
      unfold inputPrefix
      rw [rq_input, win_asSlice, if_pos (by simp), List.take_left])]
    rw [M.bind_ok (rq_bodyData hcb _ _ _ _ _ (some content) (by simpa using hne) henc hlen)]
    dsimp only [Option.getD]
    rw [rq_consume_bind, win_consume, rq_setReq_bind, Nat.sub_self, if_neg (by simp), rq_setReq_bind]
    rw [rq_bodyData hcb _ _ _ _ _ none (by simp) (by exact henc) (by simpa using hlen), List.append_assoc]
    rfl
  have := rq_round s _ _ _ _ (by rfl) key ha.1 (by simp)
  rw [this]

theorem _root_.Spec.Rounds.one {step : M (Option StreamState)} {s s' : Conn} (h : step s = (.ok none, s')) : Rounds step 1 s s' :=
  .next h (.zero _)

theorem _root_.Spec.Rounds.append {step : M (Option StreamState)} {k k' : Nat} {s s' s'' : Conn} (h : Rounds step k s s')
    (h' : Rounds step k' s' s'') : Rounds step (k + k') s s'' := by
  induction h with
  | zero => simpa using h'
  | next hs _ ih => rw [Nat.add_right_comm]; exact .next hs (ih h')

theorem sizeLine_run {e : Env} (s : Conn) (h : Half) (t : Tx) (evs : List Event) (done line rest : Bytes) (q n : Nat)
    (hb : h.buf = []) (hl : SizeLine line n) (hn : n ≤ 2147483647) (hst : h.state = .bodyChunkedLength) :
    ∃ ext, parseChunkedLength line = .ok (some n) ext ∧
    handleRequestState e (rq s h t evs (win done (line ++ rest) q)) =
      (match (some n : Option Nat) with
      | none => fail .error
      | some 0 => do
        setReq fun h => { h with state := .headers }
        modifyRequest e fun t => { t with requestProgress := .trailer }
      | some _ => setReq fun h => { h with state := .bodyChunkedData } : M Unit)
      (rq s { h with bytesConsumed := (done ++ line).length, chunkedLength := some n }
        { t with requestMessageLen := wrapAdd t.requestMessageLen line.length } evs (win (done ++ line) rest q)) := by
  obtain ⟨ext, hp⟩ := sizeLine_parse (buf := []) hl hn (by simp)
  rw [List.nil_append] at hp
  refine ⟨ext, hp, ?_⟩
  rw [hrs (st := .bodyChunkedLength) hst]
  show requestBodyChunkedLength e _ = _
  unfold requestBodyChunkedLength
  rw [rq_state_bind, rq_input, win_asSlice, requestChunkedLengthLoop_line (sizeLine_line hl rest), rq_consume_bind, win_consume,
    rq_state_bind, rq_req]
  rw [show (decide (({ h with bytesConsumed := (win (done ++ line) rest q).position } : Half).buf ≠ [])) = false from by
    simp [hb]]
  show (requestTx e _ >>= _) _ = _
  rw [rq_tx_bind, if_neg (sizeLine_ne hl)]
  unfold requestChunkLine
  rw [rq_state_bind, rq_req]
  dsimp only
  rw [hb, List.nil_append, rq_modify_bind, hp]
  dsimp only
  rw [rq_setReq_bind]
  rfl

theorem round_size {e : Env} (s : Conn) (h : Half) (t : Tx) (evs : List Event) (done line rest : Bytes) (q n : Nat)
    (hst : h.state = .bodyChunkedLength) (ha : Alive h) (hb : h.buf = []) (hl : SizeLine line n) (hn : n ≤ 2147483647)
    (hn0 : n ≠ 0) :
    requestStep e (rq s h t evs (win done (line ++ rest) q)) = (.ok none,
      rq s { h with
          bytesConsumed := (done ++ line).length, chunkedLength := some n
          state := .bodyChunkedData, statePrevious := .bodyChunkedData }
        { t with requestMessageLen := wrapAdd t.requestMessageLen line.length } evs (win (done ++ line) rest q)) := by
  obtain ⟨ext, -, h1⟩ := sizeLine_run (e := e) s h t evs done line rest q n hb hl hn hst
  obtain ⟨n, rfl⟩ := Nat.exists_eq_succ_of_ne_zero hn0
  exact rq_round s { h with bytesConsumed := (done ++ line).length, chunkedLength := some (n + 1), state := .bodyChunkedData }
    { t with requestMessageLen := wrapAdd t.requestMessageLen line.length } evs (win (done ++ line) rest q) (by rfl) h1 ha.1
    (by simp)

theorem round_last {e : Env} (s : Conn) (h : Half) (t : Tx) (evs : List Event) (done line rest : Bytes) (q : Nat)
    (hst : h.state = .bodyChunkedLength) (hpr : h.statePrevious = .bodyChunkedLength) (ha : Alive h) (hb : h.buf = [])
    (hl : SizeLine line 0) :
    requestStep e (rq s h t evs (win done (line ++ rest) q)) = (.ok none,
      rq s { h with
          bytesConsumed := (done ++ line).length, chunkedLength := some 0
          state := .headers, statePrevious := .headers, receiver := some .requestTrailerData }
        { t with requestMessageLen := wrapAdd t.requestMessageLen line.length, requestProgress := .trailer } evs
        (win (done ++ line) rest (done ++ line).length)) := by
  obtain ⟨ext, -, h1⟩ := sizeLine_run (e := e) s h t evs done line rest q 0 hb hl (by omega) hst
  have h2 := h1.trans (show (setReq (fun h => { h with state := .headers }) >>= fun _ =>
    modifyRequest e fun t => { t with requestProgress := .trailer }) _ = _ from by rw [rq_setReq_bind, rq_modify])
  have := rq_round_headers s _ _ _ _ (by rfl) h2 ha.1 rfl (by dsimp only; rw [hpr]; decide) .requestTrailerData
    (.inr ⟨rfl, rfl⟩)
  rw [this]
  rfl

theorem round_data {e : Env} (hcb : CallbacksOK e) (s : Conn) (h : Half) (t : Tx) (evs : List Event)
    (done data rest : Bytes) (q : Nat) (hst : h.state = .bodyChunkedData) (ha : Alive h)
    (hl : h.chunkedLength = some data.length) (hne : data ≠ [])
    (henc : t.requestContentEncodingProcessing = .none) (hlen : t.requestEntityLen + data.length < 2 ^ 64) :
    requestStep e (rq s h t evs (win done (data ++ rest) q)) = (.ok none,
      rq s { h with
          bytesConsumed := (done ++ data).length, chunkedLength := some 0
          state := .bodyChunkedDataEnd, statePrevious := .bodyChunkedDataEnd }
        { t with
          requestMessageLen := wrapAdd t.requestMessageLen data.length
          requestEntityLen := t.requestEntityLen + data.length }
        (evs ++ bodyCallbacks s.txs.request (some data)) (win (done ++ data) rest q)) := by
  have hpos : data.length ≠ 0 := by rw [ne_eq, List.length_eq_zero_iff]; exact hne
  refine rq_round s { h with
      bytesConsumed := (done ++ data).length, chunkedLength := some 0, state := .bodyChunkedDataEnd }
    { t with
      requestMessageLen := wrapAdd t.requestMessageLen data.length
      requestEntityLen := t.requestEntityLen + data.length }
    (evs ++ bodyCallbacks s.txs.request (some data)) (win (done ++ data) rest q) (by rfl) ?_ ha.1 (by simp)
  rw [hrs (st := .bodyChunkedData) hst]
  show requestBodyChunkedData e _ = _
  unfold requestBodyChunkedData
  have hm : min (win done (data ++ rest) q).len (h.chunkedLength.getD 0) = data.length := by
    rw [win_len, hl, List.length_append]
    exact Nat.min_eq_right (by show data.length ≤ _; omega)
  rw [rq_state_bind, rq_req, rq_input]
  generalize min (win done (data ++ rest) q).len (h.chunkedLength.getD 0) = m at hm
  subst hm
  rw [if_neg hpos]
  rw [M.bind_ok (show inputPrefix data.length (rq s h t evs (win done (data ++ rest) q)) = (.ok data, _) from by
    unfold inputPrefix
    rw [rq_input, win_asSlice, if_pos (by simp), List.take_left])]
  rw [M.bind_ok (rq_bodyData hcb _ _ _ _ _ (some data) (by simpa using hne) henc hlen)]
  rw [rq_consume_bind, win_consume, rq_setReq_bind, rq_state_bind, rq_req]
  dsimp only
  rw [hl]
  dsimp only [Option.map]
  rw [if_pos (by rw [Nat.sub_self]), Nat.sub_self]
  rfl

theorem round_dataEnd {e : Env} (s : Conn) (h : Half) (t : Tx) (evs : List Event) (done rest : Bytes) (q : Nat)
    (hst : h.state = .bodyChunkedDataEnd) (ha : Alive h) :
    requestStep e (rq s h t evs (win done ([13, 10] ++ rest) q)) = (.ok none,
      rq s { h with
          bytesConsumed := (done ++ [13, 10]).length, state := .bodyChunkedLength, statePrevious := .bodyChunkedLength }
        { t with requestMessageLen := wrapAdd t.requestMessageLen 2 } evs (win (done ++ [13, 10]) rest q)) := by
  refine rq_round (s0 := rq s h t evs (win done ([13, 10] ++ rest) q)) s
    { h with bytesConsumed := (done ++ [13, 10]).length, state := .bodyChunkedLength }
    { t with requestMessageLen := wrapAdd t.requestMessageLen 2 } evs (win (done ++ [13, 10]) rest q) rfl ?_ ha.1
    (by simp)
  rw [hrs (st := .bodyChunkedDataEnd) hst]
  show requestBodyChunkedDataEnd e _ = _
  unfold requestBodyChunkedDataEnd
  have h1 : takeTillLf ([13, 10] ++ rest) = .ok rest [13, 10] := takeTillLf_line (x := [13]) (by decide)
  rw [rq_tx_bind, rq_state_bind, rq_input, win_asSlice, h1]
  dsimp only
  rw [rq_put_bind, rq_consume_bind, win_consume]
  rfl

/-- The chunks of a body. -/
theorem rounds_chunks {e : Env} (hcb : CallbacksOK e) (s : Conn) (cs : List BodyChunk) (hv : ∀ c ∈ cs, c.Valid) :
    ∀ (h : Half) (t : Tx) (evs : List Event) (done rest : Bytes) (q : Nat),
    h.state = .bodyChunkedLength → h.statePrevious = .bodyChunkedLength → Alive h → h.buf = [] →
    t.requestContentEncodingProcessing = .none → t.requestEntityLen + (carried cs).length < 2 ^ 64 →
    ∃ k b cl ml, Rounds (requestStep e) k (rq s h t evs (win done (bytesOf (encoded cs) ++ rest) q))
      (rq s { h with bytesConsumed := b, chunkedLength := cl }
        { t with requestMessageLen := ml, requestEntityLen := t.requestEntityLen + (carried cs).length }
        (evs ++ cs.flatMap fun c => bodyCallbacks s.txs.request (some c.data))
        (win (done ++ bytesOf (encoded cs)) rest q)) := by
  induction cs with
  | nil =>
    intro h t evs done rest q _ _ _ _ _ _
    refine ⟨0, h.bytesConsumed, h.chunkedLength, t.requestMessageLen, ?_⟩
    have : rq s { h with bytesConsumed := h.bytesConsumed, chunkedLength := h.chunkedLength }
        { t with requestMessageLen := t.requestMessageLen, requestEntityLen := t.requestEntityLen + (carried []).length }
        (evs ++ ([] : List BodyChunk).flatMap fun c => bodyCallbacks s.txs.request (some c.data))
        (win (done ++ bytesOf (encoded [])) rest q) = rq s h t evs (win done (bytesOf (encoded []) ++ rest) q) := by
      simp [bytesOf, encoded, carried]
    rw [this]
    exact .zero _
  | cons c cs ih =>
    intro h t evs done rest q hst hpr ha hb henc hlen
    obtain ⟨hl, hne, hmax⟩ := hv c (by simp)
    have hbytes : bytesOf (encoded (c :: cs)) = c.line ++ (c.data ++ ([13, 10] ++ bytesOf (encoded cs))) := by
      rw [encoded_cons, bytesOf_cons_line, bytesOf_append, bytesOf_byte, List.append_assoc]
    have hcar : (carried (c :: cs)).length = c.data.length + (carried cs).length := by simp [carried]
    rw [hcar] at hlen
    have r1 := round_size (e := e) s h t evs done c.line (c.data ++ ([13, 10] ++ (bytesOf (encoded cs) ++ rest))) q
      c.data.length hst ha hb hl hmax (by rw [ne_eq, List.length_eq_zero_iff]; exact hne)
    have r2 := round_data (e := e) hcb s { h with
          bytesConsumed := (done ++ c.line).length, chunkedLength := some c.data.length
          state := .bodyChunkedData, statePrevious := .bodyChunkedData }
        { t with requestMessageLen := wrapAdd t.requestMessageLen c.line.length } evs (done ++ c.line) c.data
        ([13, 10] ++ (bytesOf (encoded cs) ++ rest)) q rfl ha rfl hne henc (by show t.requestEntityLen + _ < _; omega)
    have r3 := round_dataEnd (e := e) s { h with
          bytesConsumed := (done ++ c.line ++ c.data).length, chunkedLength := some 0
          state := .bodyChunkedDataEnd, statePrevious := .bodyChunkedDataEnd }
        { t with
          requestMessageLen := wrapAdd (wrapAdd t.requestMessageLen c.line.length) c.data.length
          requestEntityLen := t.requestEntityLen + c.data.length }
        (evs ++ bodyCallbacks s.txs.request (some c.data)) (done ++ c.line ++ c.data) (bytesOf (encoded cs) ++ rest) q rfl ha
    obtain ⟨k, b, cl, ml, r4⟩ := ih (fun c hc => hv c (List.mem_cons_of_mem _ hc))
        { h with
          bytesConsumed := (done ++ c.line ++ c.data ++ [13, 10]).length, chunkedLength := some 0
          state := .bodyChunkedLength, statePrevious := .bodyChunkedLength }
        { t with
          requestMessageLen := wrapAdd (wrapAdd (wrapAdd t.requestMessageLen c.line.length) c.data.length) 2
          requestEntityLen := t.requestEntityLen + c.data.length }
        (evs ++ bodyCallbacks s.txs.request (some c.data)) (done ++ c.line ++ c.data ++ [13, 10]) rest q rfl rfl ha hb henc
        (by show t.requestEntityLen + _ + _ < _; omega)
    refine ⟨k + 1 + 1 + 1, b, cl, ml, ?_⟩
    have r5 := Rounds.next r1 (Rounds.next r2 (Rounds.next r3 r4))
    rw [hbytes, hcar, List.flatMap_cons, ← Nat.add_assoc, ← List.append_assoc evs]
    have e1 : c.line ++ (c.data ++ ([13, 10] ++ bytesOf (encoded cs))) ++ rest =
      c.line ++ (c.data ++ ([13, 10] ++ (bytesOf (encoded cs) ++ rest))) := by simp
    have e2 : done ++ (c.line ++ (c.data ++ ([13, 10] ++ bytesOf (encoded cs)))) =
      done ++ c.line ++ c.data ++ [13, 10] ++ bytesOf (encoded cs) := by simp
    rw [e1, e2]
    have e3 : ({ h with bytesConsumed := b, chunkedLength := cl } : Half) =
      { h with bytesConsumed := b, chunkedLength := cl, state := .bodyChunkedLength, statePrevious := .bodyChunkedLength } := by
      rw [← hst]
      rw [hst, ← hpr]
    rw [e3]
    exact r5

/-- The trailer. -/
theorem round_trailer {e : Env} (hcb : CallbacksOK e) (ls : List HeaderLine) (hw : ∀ h ∈ ls, h.WellFormed) (s : Conn)
    (h : Half) (t : Tx) (evs : List Event) (done x rest : Bytes) (hst : h.state = .headers)
    (hh : h.header.getD [] ++ x = renderBlock ls) (hx : x ≠ []) (hls : ls = [] → h.header.getD [] = [])
    (hrc : h.receiver = some .requestTrailerData) (ha : Alive h) (hp : t.requestProgress = .trailer)
    (hside : t.requestHeaderParser.side = .request) (hf : Follows ls rest) :
    requestStep e (rq s h t evs (win done (x ++ rest) done.length)) = (.ok none,
      rq s { h with
          header := none, bytesConsumed := (done ++ x).length, receiver := none
          state := .finalize, statePrevious := .finalize }
        { t with
          requestHeaders := ((fieldsOf ls).foldl (fun s h => s.1.store s.2 h) (t.requestHeaders, t.requestHeaderRepetitions)).1
          requestHeaderRepetitions :=
            ((fieldsOf ls).foldl (fun s h => s.1.store s.2 h) (t.requestHeaders, t.requestHeaderRepetitions)).2 }
        (evs ++ [.data .requestTrailerData s.txs.request (.ofBytes x), .tx .requestTrailer s.txs.request])
        (win (done ++ x) rest (done ++ x).length)) := by
  obtain ⟨rem, eoh, h1, h2, h3⟩ := parseRequestHeaders_block t ls hw rest hf hside
  rw [← hh, List.append_assoc] at h1 h2 h3
  have h3 := h3 x hx (fun h0 => by rw [hls h0]; rfl)
  generalize hta : ({ t with
          requestHeaders := ((fieldsOf ls).foldl (fun s h => s.1.store s.2 h) (t.requestHeaders, t.requestHeaderRepetitions)).1
          requestHeaderRepetitions :=
            ((fieldsOf ls).foldl (fun s h => s.1.store s.2 h) (t.requestHeaders, t.requestHeaderRepetitions)).2 } : Tx) = ta
    at h1
  have hpa : ta.requestProgress = .trailer := by rw [← hta]; exact hp
  have key : handleRequestState e (rq s h t evs (win done (x ++ rest) done.length)) = (.ok (), rq s { h with
          header := none, bytesConsumed := (done ++ x).length, receiver := none, state := .finalize } ta
        (evs ++ [.data .requestTrailerData s.txs.request (.ofBytes x), .tx .requestTrailer s.txs.request])
        (win (done ++ x) rest (done ++ x).length)) := by
    rw [hrs (st := .headers) hst]
    show requestHeaders e _ = _
    unfold requestHeaders
    rw [rq_state_bind, rq_req, if_neg ha.2]
    dsimp only
    rw [rq_input, win_asSlice, rq_setReq_bind, withRequest_rq _ _ _ _ _ _ _ _ _ h1]
    dsimp only
    rw [if_pos h2, h3, rq_consume_bind, win_consume]
    unfold stateRequestHeaders
    rw [M.bind_ok (rq_finalizeClear _ _ _ _ hcb done x rest .requestTrailerData (by exact hrc)),
      rq_tx_bind, hpa, if_pos (by decide)]
    unfold stateRequestTrailer
    rw [rq_state_bind, rq_request, rq_hook_bind _ _ _ _ _ hcb, rq_setReq, List.append_assoc]
    rfl
  subst hta
  exact rq_round (s0 := rq s h t evs (win done (x ++ rest) done.length)) s _ _ _ _ rfl key ha.1 (by simp)

/-- The parser after the current request: this request side, this transaction for it, these further callbacks run and
this window. -/
def over (s : Conn) (h : Half) (t : Tx) (evs : List Event) (inp : PData) : Conn :=
  { s with
    req := h, txs := { s.txs.set s.txs.request t with request := s.txs.request + 1 }, trace := s.trace ++ evs, input := inp
    connFlags := if s.txs.request > s.txs.response then setFlag s.connFlags ConnFlag.PIPELINED else s.connFlags }

theorem complete_rq {e : Env} (hcb : CallbacksOK e) (s : Conn) (h : Half) (t : Tx) (evs : List Event) (inp : PData)
    (hr : h.receiver = none) (hp : t.requestProgress ≠ .complete) (hp9 : t.isProtocol09 = false)
    (hrp : t.responseProgress ≠ .complete) (henc : t.requestContentEncodingProcessing = .none)
    (hlen : t.requestEntityLen < 2 ^ 64) :
    ∃ ml, stateRequestComplete e (rq s h t evs inp) = (.ok (),
      over s { h with state := .idle } { t with requestMessageLen := ml, requestProgress := .complete }
        (evs ++ ((if t.requestHasBody then bodyCallbacks s.txs.request none else []) ++ [.tx .requestComplete s.txs.request]))
        inp) := by
  have h1 : ∃ ml, (M.when t.requestHasBody (requestBodyData e none)) (rq s h t evs inp) =
      (.ok (), rq s h { t with requestMessageLen := ml }
        (evs ++ (if t.requestHasBody then bodyCallbacks s.txs.request none else [])) inp) := by
    cases t.requestHasBody with
    | false => exact ⟨t.requestMessageLen, by rw [show (if false = true then _ else _ : List Event) = [] from rfl, List.append_nil]; rfl⟩
    | true =>
      refine ⟨wrapAdd t.requestMessageLen 0, ?_⟩
      exact rq_bodyData hcb _ _ _ _ _ none (by simp) henc (by simpa using hlen)
  obtain ⟨ml, h1⟩ := h1
  refine ⟨ml, ?_⟩
  generalize ht' : ({ t with requestMessageLen := ml, requestProgress := .complete } : Tx) = t'
  have hc' : t'.isComplete = false := by rw [← ht']; simp [Tx.isComplete, hrp]
  have hp9' : t'.isProtocol09 = false := by rw [← ht']; exact hp9
  have h2 : completeRequest e t (rq s h t evs inp) = (.ok (),
      rq s h t'
        (evs ++ ((if t.requestHasBody then bodyCallbacks s.txs.request none else []) ++ [.tx .requestComplete s.txs.request]))
        inp) := by
    unfold completeRequest
    rw [M.bind_ok h1, rq_modify_bind, rq_state_bind, rq_request, rq_hook_bind _ _ _ _ _ hcb, rq_finalizeClear_none _ _ _ _ _ hr,
      List.append_assoc, ← ht']
  unfold stateRequestComplete
  rw [rq_tx_bind, show (t.requestProgress != .complete) = true from by simpa using hp]
  rw [M.bind_ok (show M.when true (completeRequest e t) _ = _ from h2), rq_tx_bind, rq_setReq_bind, rq_state_bind, rq_request,
    hp9']
  have h3 : ∀ evs' h', finalizeTx e s.txs.request (rq s h' t' evs' inp) = (.ok (), rq s h' t' evs' inp) := by
    intro evs' h'
    unfold finalizeTx
    rw [rq_state_bind, rq_get]
    dsimp only
    rw [hc']
    rfl
  rw [M.bind_ok (h3 _ _)]
  unfold requestNext
  have h4 : ∀ evs' h', ((rq s h' t' evs' inp).txs).requestNext e.cfg.txAutoDestroy =
      { s.txs.set s.txs.request t' with request := s.txs.request + 1 } := by
    intro evs' h'
    unfold Txs.requestNext Txs.checkFree
    rw [rq_request, rq_get]
    dsimp only
    rw [hc']
    split <;> rfl
  show (Except.ok (), ({ rq s _ _ _ inp with connFlags := _, txs := _ } : Conn)) = _
  rw [h4]
  rfl

theorem over_round {e : Env} {s0 : Conn} (s : Conn) (h : Half) (t : Tx) (evs : List Event) (inp : PData)
    (hg : s0.input.isGap = false) (h1 : handleRequestState e s0 = (.ok (), over s h t evs inp)) (ht : h.status ≠ .tunnel)
    (hs : h.state ≠ .headers) :
    requestStep e s0 = (.ok none, over s { h with statePrevious := h.state } t evs inp) := by
  refine requestStep_ok (by rw [hg]; rfl) h1 ht ?_
  unfold requestHandleStateChange
  rw [M.bind_state]
  show (if h.statePrevious = h.state then (pure () : M Unit) else _) _ = _
  split
  next h' =>
    have : { h with statePrevious := h.state } = h := by
      cases h
      dsimp only at h'
      rw [h']
    rw [this]
    rfl
  next =>
    have : (h.state == State.headers) = false := by simpa using hs
    show (M.when (h.state == State.headers) _ >>= _) _ = _
    rw [this]
    rfl

theorem M.when_false_bind (m : M Unit) {β : Type} (f : Unit → M β) (s : Conn) : (M.when false m >>= f) s = f () s := rfl

/-- What may follow a request: nothing, or another one. -/
def Upcoming (rest : Bytes) : Prop := rest = [] ∨ ∃ r : Request, r.WellFormed ∧ ∃ rest', rest = r.line ++ [13, 10] ++ rest'

theorem firstWord_line {ms : List (Bytes × Method)} [KnownMethods ms] {r : Request} (h : r.WellFormedIn ms) (b : Bytes) : firstWord (r.line ++ b) = r.method := by
  obtain ⟨m, hm⟩ := h.method
  obtain ⟨-, -, m1, m2, -⟩ := KnownMethods.facts _ hm
  dsimp only at m1 m2
  have h1 : ∀ c : UInt8, ¬ Blank c → isSpace c = false := by decide +kernel
  have h2 : ∀ c ∈ r.method, isSpace c = false := fun c hc => h1 c (m2 c hc)
  unfold firstWord Request.line
  cases hr : r.method with
  | nil => exact absurd hr m1
  | cons c cs =>
    rw [hr] at h2
    have h3 := h2 c (by simp)
    simp only [List.cons_append, List.append_assoc]
    rw [List.dropWhile_cons_of_neg (by simp [h3])]
    have := List.takeWhile_append_of_pos (p := fun c => !isSpace c) (l₁ := c :: cs)
      (l₂ := 32 :: (r.uri ++ 32 :: r.protocol) ++ b) (fun c hc => by simp [h2 c hc])
    simp only [List.cons_append, List.append_assoc] at this
    rw [this, List.takeWhile_cons_of_neg (by decide), List.append_nil]

/-- What may follow a request, given what has been read of it: nothing, or the rest of the line of another one. What
has been read came with earlier calls. -/
def Resumed (e : Env) (p done rest : Bytes) : Prop :=
  (p = [] ∧ rest = []) ∨ ∃ (r : Request) (rem rest' : Bytes), r.WellFormed ∧ p ++ rem = r.line ++ [13, 10] ∧ rem ≠ [] ∧
    rest = rem ++ rest' ∧ (p = [] ∨ (done = [] ∧ r.line.length + 2 ≤ e.cfg.fieldLimit))

theorem Upcoming.resumed {rest : Bytes} (h : Upcoming rest) (e : Env) (done : Bytes) : Resumed e [] done rest := by
  rcases h with rfl | ⟨r, hr, rest', rfl⟩
  · exact .inl ⟨rfl, rfl⟩
  · exact .inr ⟨r, r.line ++ [13, 10], rest', hr, rfl, by simp, rfl, .inl rfl⟩

theorem win_unconsume_all (a b : Bytes) (q n : Nat) (h : a.length ≤ n) : (win a b q).unconsume n = win [] (a ++ b) q := by
  unfold PData.unconsume win
  dsimp only
  split
  · omega
  · simp

theorem round_finalize_left {e : Env} (hcb : CallbacksOK e) (s : Conn) (h : Half) (t : Tx) (evs : List Event)
    (done rest : Bytes) (q : Nat) (hst : h.state = .finalize) (ha : Alive h) (hh : h.header = none)
    (hn : Resumed e h.buf done rest)
    (hr : h.receiver = none) (hp : t.requestProgress ≠ .complete) (hp9 : t.isProtocol09 = false)
    (hrp : t.responseProgress ≠ .complete) (henc : t.requestContentEncodingProcessing = .none)
    (hlen : t.requestEntityLen < 2 ^ 64) :
    ∃ ml b dl, (dl = none ∨ dl = h.bodyDataLeft) ∧ requestStep e (rq s h t evs (win done rest q)) = (.ok none,
      over s { h with bytesConsumed := b, bodyDataLeft := dl, state := .idle, statePrevious := .idle }
        { t with requestMessageLen := ml, requestProgress := .complete }
        (evs ++ ((if t.requestHasBody then bodyCallbacks s.txs.request none else []) ++ [.tx .requestComplete s.txs.request]))
        (win done rest q)) := by
  rcases hn with ⟨hb, rfl⟩ | ⟨r, rem, rest, hrw, hb, hrem, rfl, hcame⟩
  · obtain ⟨ml, h1⟩ := complete_rq hcb s h t evs (win done [] q) hr hp hp9 hrp henc hlen
    refine ⟨ml, h.bytesConsumed, h.bodyDataLeft, .inr rfl, ?_⟩
    refine over_round s { h with state := .idle } _ _ _ (by rfl) ?_ ha.1 (by simp)
    rw [hrs (st := .finalize) hst]
    show requestFinalize e _ = _
    unfold requestFinalize
    rw [rq_state_bind, rq_input, win_isGap, if_neg (by simp), rq_req, if_neg ha.2, win_asSlice, if_pos rfl, h1]
  · obtain ⟨c, cs, hc, -⟩ := line_cons hrw
    have hne : r.line ++ [13, 10] ≠ [] := by simp
    have hfw := firstWord_line hrw [13, 10]
    obtain ⟨m, hm⟩ := hrw.method
    obtain ⟨m0, -, m3, m1, -, -⟩ := method_facts _ hm
    dsimp only at m0 m1 m3
    obtain ⟨x, hx, hnx, -⟩ := line_rest hrw hb hrem
    obtain ⟨ml, h1⟩ := complete_rq hcb s { h with bytesConsumed := done.length, bodyDataLeft := none } t evs
      (win done (rem ++ rest) q) hr hp hp9 hrp henc hlen
    refine ⟨ml, done.length, none, .inl rfl, ?_⟩
    refine over_round s { h with bytesConsumed := done.length, bodyDataLeft := none, state := .idle } _ _ _ (by rfl) ?_ ha.1
      (by simp)
    rw [hrs (st := .finalize) hst]
    show requestFinalize e _ = _
    unfold requestFinalize
    have hl : takeTillLf (rem ++ rest) = .ok rest rem := by
      rw [hx]
      have := takeTillLf_line (x := x) (rest := rest) hnx
      simpa using this
    rw [rq_state_bind, rq_input, win_isGap, if_neg (by simp), rq_req, if_neg ha.2, win_asSlice,
      if_neg (by simp [hrem]), hl]
    dsimp only
    rw [rq_consume_bind, win_consume]
    unfold requestFinalizeLine
    rw [rq_state_bind, rq_req]
    dsimp only
    have hchk : M.when (decide (h.buf ≠ [])) (checkRequestBufferLimit e rem.length)
        (rq s { h with bytesConsumed := (win (done ++ rem) rest q).position } t evs (win (done ++ rem) rest q)) =
        (.ok (), rq s { h with bytesConsumed := (win (done ++ rem) rest q).position } t evs (win (done ++ rem) rest q)) := by
      rcases hcame with h0 | ⟨-, hlim⟩
      · rw [h0]; rfl
      · cases decide (h.buf ≠ []) with
        | false => rfl
        | true =>
          show checkRequestBufferLimit e rem.length _ = _
          unfold checkRequestBufferLimit
          rw [rq_state_bind, rq_req, if_neg]
          · rfl
          · have := congrArg List.length hb
            simp only [List.length_append, List.length_cons, List.length_nil] at this
            unfold Half.buffered
            dsimp only
            rw [hh]
            simp
            omega
    rw [M.bind_ok hchk, rq_setReq_bind, hb, if_neg hne, hfw, if_neg m1, m0, if_neg m3, rq_setReq_bind, rq_unconsume_bind]
    have hun : (win (done ++ rem) rest q).unconsume (r.line ++ [13, 10]).length = win done (rem ++ rest) q := by
      rw [← hb]
      rcases hcame with h0 | ⟨rfl, -⟩
      · rw [h0]
        exact win_unconsume _ _ _ _
      · rw [List.nil_append]
        exact win_unconsume_all _ _ _ _ (by simp)
    rw [hun]
    exact h1

theorem round_finalize {e : Env} (hcb : CallbacksOK e) (s : Conn) (h : Half) (t : Tx) (evs : List Event)
    (done rest : Bytes) (q : Nat) (hst : h.state = .finalize) (ha : Alive h) (hh : h.header = none)
    (hn : Resumed e h.buf done rest)
    (hr : h.receiver = none) (hp : t.requestProgress ≠ .complete) (hp9 : t.isProtocol09 = false)
    (hrp : t.responseProgress ≠ .complete) (henc : t.requestContentEncodingProcessing = .none)
    (hlen : t.requestEntityLen < 2 ^ 64) :
    ∃ ml b dl, requestStep e (rq s h t evs (win done rest q)) = (.ok none,
      over s { h with bytesConsumed := b, bodyDataLeft := dl, state := .idle, statePrevious := .idle }
        { t with requestMessageLen := ml, requestProgress := .complete }
        (evs ++ ((if t.requestHasBody then bodyCallbacks s.txs.request none else []) ++ [.tx .requestComplete s.txs.request]))
        (win done rest q)) := by
  obtain ⟨ml, b, dl, -, h1⟩ := round_finalize_left hcb s h t evs done rest q hst ha hh hn hr hp hp9 hrp henc hlen
  exact ⟨ml, b, dl, h1⟩

end Model

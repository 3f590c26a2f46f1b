/-
The rounds of the response state machine on a well-formed response.
-/
import Verif.Lemmas.RespRun
import Verif.Lemmas.RespMessage
import Verif.Lemmas.ConnRespChunked

namespace Model

open M Spec Props

theorem withResponse_rp {e : Env} {α β : Type} (f : Tx → α × Tx) (g : α → M β) (s : Conn) (h : Half) (t t' : Tx)
    (evs : List Event) (inp : PData) (a : α) (hf : f t = (a, t')) :
    (withResponse e f >>= g) (rp s h t evs inp) = g a (rp s h t' evs inp) := by
  refine M.bind_ok ?_
  unfold withResponse
  rw [rp_tx_bind, hf, rp_put_bind]
  rfl

/-- What is run in a state. -/
def answerFn (e : Env) : State → M Unit
  | .idle => responseIdle e
  | .line => responseLine e
  | .headers => responseHeaders e
  | .bodyDetermine => responseBodyDetermine e
  | .bodyChunkedData => responseBodyChunkedData e
  | .bodyChunkedLength => responseBodyChunkedLength e
  | .bodyChunkedDataEnd => responseBodyChunkedDataEnd e
  | .finalize => responseFinalize e
  | .bodyIdentityStreamClose => responseBodyIdentityStreamClose e
  | .bodyIdentityClKnown => responseBodyIdentityClKnown e
  | .none | .protocol | .connectCheck | .connectProbeData | .connectWaitResponse | .bodyIdentity
  | .ignoreDataAfterHttp09 => fail .error

theorem hps {e : Env} {s : Conn} {st : State} (h : s.resp.state = st) : handleResponseState e s = answerFn e st s := by
  subst h
  unfold handleResponseState answerFn
  rw [M.bind_state]
  cases s.resp.state <;> rfl

/-- A response begins. -/
theorem answer_idle {e : Env} (hcb : CallbacksOK e) {s : Conn} (hb : BetweenResponses s) {t : Tx}
    (hg : s.txs.get s.txs.response = some t) (hp : t.requestProgress ≠ .notStarted) (h9 : t.isProtocol09 = false)
    {done rest : Bytes} {q : Nat} (hi : s.input = win done rest q) (hne : rest ≠ []) :
    responseStep e s = (.ok none, rp s
      { s.resp with contentLength := none, bodyDataLeft := none, state := .line, statePrevious := .line }
      { t with responseProgress := .line } [.tx .responseStart s.txs.response] s.input) := by
  have hst : s.resp.status ≠ .tunnel := by rcases hb.status with h | h | h <;> rw [h] <;> decide
  refine rp_round s { s.resp with contentLength := none, bodyDataLeft := none, state := .line }
    { t with responseProgress := .line } [.tx .responseStart s.txs.response] s.input
    (by rw [hi]; rfl) ?_ hst (by simp)
  rw [hps hb.state]
  show responseIdle e s = _
  unfold responseIdle
  rw [M.bind_state, if_neg (by
    rw [hi, win_isEmpty]
    simpa using hne), M.bind_ok (responseTx_some hg)]
  rw [show (t.requestProgress == .notStarted) = false from by simpa using hp]
  refine (M.when_false_bind _ _ _).trans ?_
  show stateResponseStart e { s with resp := { s.resp with contentLength := none, bodyDataLeft := none } } = _
  unfold stateResponseStart
  rw [M.bind_ok (responseTx_some (by exact hg)), M.bind_state, if_neg (by rw [h9]; simp)]
  have := rp_hook s { s.resp with contentLength := none, bodyDataLeft := none, state := .line }
      { t with responseProgress := .line } [] s.input hcb .responseStart
  rw [show rp s { s.resp with contentLength := none, bodyDataLeft := none, state := .line }
      { t with responseProgress := .line } [] s.input = _ from by simp only [rp, List.append_nil]; rfl] at this
  exact this

/-! The status line. -/

theorem answer_line {e : Env} (hcb : CallbacksOK e) {r : Response} (hr : r.HeadWellFormed) (s : Conn)
    (h : Half) (t : Tx) (evs : List Event) (done rest : Bytes) (q : Nat) (hst : h.state = .line)
    (hpr : h.statePrevious = .line) (hb : h.buf = []) (hh : h.header = none) (ha : Alive h)
    (hlim : r.line.length + 2 ≤ e.cfg.fieldLimit) (hx : t.index = s.txs.response) :
    responseStep e (rp s h t evs (win done (r.line ++ [13, 10] ++ rest) q)) = (.ok none,
      rp s { h with
          buf := [], bytesConsumed := (done ++ (r.line ++ [13, 10])).length, state := .headers, statePrevious := .headers
          receiver := some .responseHeaderData }
        { t with
          responseLine := some (r.line ++ [13, 10])
          responseProtocol := some r.protocol
          responseProtocolNumber := parseProtocol r.protocol
          responseStatus := some (Spec.render 10 r.code)
          responseStatusNumber := .valid r.code
          responseMessage := some r.message
          responseProgress := .headers }
        (evs ++ [.tx .responseLine s.txs.response])
        (win (done ++ (r.line ++ [13, 10])) rest (done ++ (r.line ++ [13, 10])).length)) := by
  have key : handleResponseState e (rp s h t evs (win done (r.line ++ [13, 10] ++ rest) q)) = (.ok (),
      rp s { h with buf := [], bytesConsumed := (done ++ (r.line ++ [13, 10])).length, state := .headers }
        { t with
          responseLine := some (r.line ++ [13, 10])
          responseProtocol := some r.protocol
          responseProtocolNumber := parseProtocol r.protocol
          responseStatus := some (Spec.render 10 r.code)
          responseStatusNumber := .valid r.code
          responseMessage := some r.message
          responseProgress := .headers }
        (evs ++ [.tx .responseLine s.txs.response])
        (win (done ++ (r.line ++ [13, 10])) rest q)) := by
    rw [hps (st := .line) hst]
    show responseLine e _ = _
    unfold responseLine
    rw [rp_state_bind, rp_input, win_asSlice, takeTillEol_crlf (response_noEol hr)]
    dsimp only
    rw [rp_setResp_bind, rp_consume_bind, win_consume, rp_resp, hb, List.nil_append]
    unfold responseLineComplete checkResponseBufferLimit
    rw [M.bind_bind, rp_state_bind, rp_resp]
    rw [if_neg (by
      unfold Half.buffered
      dsimp only
      rw [hh]
      simp
      omega), M.pure_bind_run]
    rw [if_neg (by simp), rp_tx_bind]
    obtain ⟨cs, hc⟩ := response_cons hr
    rw [show isLineIgnorable e.cfg.serverPersonality (r.line ++ [13, 10]) = false from by
      rw [hc]; exact notIgnorable _ _ (by decide)]
    rw [if_neg (by simp)]
    unfold responseLineRead
    rw [rp_modify_bind, rp_state_bind, notAsBody hr, if_neg (by simp), rp_modify_bind, readResponseLine_wf _ hr]
    unfold stateResponseLine
    rw [M.bind_bind, rp_tx_bind, M.bind_bind, rp_put_bind]
    obtain ⟨p, hp⟩ := hr.protocol
    rw [validateResponseLine_wf (n := r.code) _ (by
      show parseProtocol r.protocol ≠ _
      rw [(protocol_facts _ hp).1]; exact protocol_number _ hp) rfl (by have := hr.code; omega) hr.code.2]
    dsimp only
    rw [hx, rp_hook_bind _ _ _ _ _ hcb, rp_setResp_bind, rp_modify]
    rfl
  have := rp_round_headers s _ _ _ _ (by rfl) key ha.1 rfl (by dsimp only; rw [hpr]; decide) .responseHeaderData (.inl ⟨rfl, rfl⟩)
  rw [this]
  rfl

/-- The header fields of a response. -/
theorem answer_headers {e : Env} {r : Response} (hr : r.HeadWellFormed) (s : Conn) (h : Half) (t : Tx)
    (evs : List Event) (done rest : Bytes) (q : Nat) (hst : h.state = .headers) (hh : h.header = none)
    (ha : Alive h) (hp : t.responseProgress = .headers)
    (ht0 : t.responseHeaders = []) (ht1 : t.responseHeaderRepetitions = 0)
    (hf : AnswerFollows r.headers rest) :
    responseStep e (rp s h t evs (win done (renderBlock r.headers ++ rest) q)) = (.ok none,
      rp s { h with
          header := none, bytesConsumed := (done ++ renderBlock r.headers).length
          state := .bodyDetermine, statePrevious := .bodyDetermine }
        { t with
          responseHeaders := storedTable HFlag.FIELD_REPEATED (fieldsOf r.headers)
          responseHeaderRepetitions := min 64 (extras (fieldsOf r.headers) (fieldsOf r.headers).length) }
        evs (win (done ++ renderBlock r.headers) rest q)) := by
  obtain ⟨rem, eoh, h1, h2, h3⟩ := parseResponseHeaders_block t r.headers hr.headers rest hf
  rw [ht0, ht1, stored_lines _ hr.headers] at h1
  refine rp_round (s0 := rp s h t evs (win done (renderBlock r.headers ++ rest) q)) s { h with
          header := none, bytesConsumed := (done ++ renderBlock r.headers).length
          state := .bodyDetermine } _ _ _ rfl ?_ ha.1 (by simp)
  rw [hps (st := .headers) hst]
  show responseHeaders e _ = _
  unfold responseHeaders
  rw [rp_state_bind, rp_resp, if_neg ha.2, hh]
  dsimp only [Option.getD]
  rw [List.nil_append, rp_input, win_asSlice, rp_setResp_bind, withResponse_rp _ _ _ _ _ _ _ _ _ h1]
  dsimp only
  rw [if_pos h2, win_len, h3, rp_consume_bind, win_consume]
  unfold responseHeadersDone
  rw [rp_tx_bind, if_pos hp]
  rfl

/-! How the body is delimited. -/

/-- No tunnel is established by this response. -/
def Passes (e : Env) (s s' : Conn) (t : Tx) : Prop :=
  ∀ h evs inp, responseConnect e (rp s h t evs inp) = (.ok false, rp s' h t evs inp)

theorem passes_plain {e : Env} (s : Conn) {t : Tx} (hm : t.requestMethodNumber ≠ .connect) : Passes e s s t := by
  intro h evs inp
  unfold responseConnect
  rw [rp_tx_bind, if_neg hm]
  rfl

/-- A request that waits for permission is over, or not (src/response.rs:461-476). -/
def Heeds (e : Env) (s s' : Conn) (t : Tx) : Prop :=
  ∀ h evs inp, responseExpect e (rp s h t evs inp) = (.ok (), rp s' h t evs inp)

theorem heeds_none {e : Env} (s : Conn) {t : Tx} {n : Nat} (hn : t.responseStatusNumber = .valid n)
    (he : t.requestHeaders.getNocase (b! "expect") = none ∨ ¬ (400 ≤ n ∧ n ≤ 499)) : Heeds e s s t := by
  intro h evs inp
  unfold responseExpect
  rw [rp_state_bind, rp_tx_bind]
  rcases he with he | he
  · rw [he]
    dsimp only
    generalize (_ && _ : Bool) = c
    cases c <;> rfl
  · rw [show t.responseStatusNumber.inRange 400 499 = false from by
      rw [hn]
      simp only [ResponseNumber.inRange]
      simp
      omega]
    rfl

/-- The body of the request has begun, or there is none. -/
theorem heeds_begun {e : Env} {s : Conn} (h : ¬ (0 < s.req.contentLength.getD 0 ∧ s.req.bodyDataLeft = s.req.contentLength)) (t : Tx) :
    Heeds e s s t := by
  intro h' evs inp
  unfold responseExpect
  rw [rp_state_bind, rp_tx_bind]
  have h1 : (t.responseStatusNumber.inRange 400 499 && decide ((rp s h' t evs inp).req.contentLength.getD 0 > 0) &&
      (rp s h' t evs inp).req.bodyDataLeft == (rp s h' t evs inp).req.contentLength) = false := by
    rw [show (rp s h' t evs inp).req = s.req from rfl, Bool.and_assoc]
    refine Bool.and_eq_false_iff.2 (.inr ?_)
    by_contra h2
    rw [Bool.not_eq_false, Bool.and_eq_true, decide_eq_true_eq, beq_iff_eq] at h2
    exact h h2
  rw [h1]
  rfl

/-- The body of the response is looked at. -/
def Settles (e : Env) (s s' : Conn) (t : Tx) : Prop :=
  ∀ h evs inp, responseBodyDetermine e (rp s h t evs inp) =
    responseBody e (t.responseHeaders.getNocaseNozero (b! "transfer-encoding"))
      (t.responseHeaders.getNocaseNozero (b! "content-length")) (rp s' h t evs inp)

/-- Neither a tunnel nor an interim response. -/
theorem settles {e : Env} {s s1 s' : Conn} {t : Tx} {n : Nat} (hm : Passes e s s1 t) (he : Heeds e s1 s' t)
    (hn : t.responseStatusNumber = .valid n) (h2 : 200 ≤ n) : Settles e s s' t := by
  intro h evs inp
  unfold responseBodyDetermine
  rw [M.bind_ok (hm h evs inp)]
  show responseDetermineRest e _ = _
  unfold responseDetermineRest
  rw [rp_tx_bind]
  have h3 : ∀ te cl, responseInterim e te cl (rp s1 h t evs inp) = (.ok .body, rp s' h t evs inp) := by
    intro te cl
    unfold responseInterim
    rw [rp_tx_bind, if_neg (by rw [hn]; simp [ResponseNumber.eqNum]; omega),
      if_neg (by rw [hn]; simp [ResponseNumber.eqNum]; omega), M.bind_ok (he h evs inp)]
    rfl
  rw [M.bind_ok (h3 _ _)]

theorem settles_plain {e : Env} (s : Conn) {t : Tx} {n : Nat}
    (hm : t.requestMethodNumber ≠ .connect) (hn : t.responseStatusNumber = .valid n) (h2 : 200 ≤ n)
    (he : t.requestHeaders.getNocase (b! "expect") = none ∨ ¬ (400 ≤ n ∧ n ≤ 499)) : Settles e s s t :=
  settles (passes_plain s hm) (heeds_none s hn he) hn h2

theorem determine_rp {e : Env} (s : Conn) (h : Half) (t : Tx) (evs : List Event) (inp : PData) {n : Nat}
    (hm : t.requestMethodNumber ≠ .connect) (hn : t.responseStatusNumber = .valid n) (h2 : 200 ≤ n)
    (he : t.requestHeaders.getNocase (b! "expect") = none ∨ ¬ (400 ≤ n ∧ n ≤ 499)) :
    responseBodyDetermine e (rp s h t evs inp) =
      responseBody e (t.responseHeaders.getNocaseNozero (b! "transfer-encoding"))
        (t.responseHeaders.getNocaseNozero (b! "content-length")) (rp s h t evs inp) :=
  settles_plain s hm hn h2 he h evs inp

/-- The header data is handed out, the callback is run, and no decompressor is installed. -/
theorem headersDone_rp {e : Env} (hcb : CallbacksOK e) {head : Bool} {r : Response} (hr : r.WellFormed head) (s : Conn)
    (h : Half) (t : Tx) (evs : List Event) (done blk rest : Bytes) (hrc : h.receiver = some .responseHeaderData)
    (ht : t.responseHeaders = storedTable HFlag.FIELD_REPEATED (fieldsOf r.headers)) :
    stateResponseHeaders e (rp s h t evs (win (done ++ blk) rest done.length)) = (.ok (),
      rp s { h with receiver := none }
        { t with responseContentEncoding := .none, responseContentEncodingProcessing := .none }
        (evs ++ [.data .responseHeaderData s.txs.response (.ofBytes blk), .tx .responseHeaders s.txs.response])
        (win (done ++ blk) rest (done ++ blk).length)) := by
  unfold stateResponseHeaders
  rw [M.bind_ok (rp_finalizeClear _ _ _ _ hcb done blk rest .responseHeaderData hrc), rp_state_bind, rp_response,
    rp_hook_bind _ _ _ _ _ hcb, rp_tx_bind, rp_put, initResponseDecompressors_wf _ hr _ _ ht, List.append_assoc]
  rfl

theorem answer_determine_absent_via {e : Env} (hcb : CallbacksOK e) {r : Response} (s s' : Conn)
    (h : Half) (t : Tx) (evs : List Event) (done blk rest : Bytes)
    (hr : r.WellFormed (decide (t.requestMethodNumber = .head))) (hbody : r.body = .absent)
    (hst : h.state = .bodyDetermine) (ha : Alive h) (hrc : h.receiver = some .responseHeaderData)
    (ht : t.responseHeaders = storedTable HFlag.FIELD_REPEATED (fieldsOf r.headers))
    (hm : Settles e s s' t) (hn : t.responseStatusNumber = .valid r.code) :
    responseStep e (rp s h t evs (win (done ++ blk) rest done.length)) = (.ok none,
      rp s' { h with state := .finalize, statePrevious := .finalize, receiver := none }
        { t with
          responseTransferCoding := .noBody, responseContentEncoding := .none, responseContentEncodingProcessing := .none }
        (evs ++ [.data .responseHeaderData s'.txs.response (.ofBytes blk), .tx .responseHeaders s'.txs.response])
        (win (done ++ blk) rest (done ++ blk).length)) := by
  refine rp_round (s0 := rp s h t evs (win (done ++ blk) rest done.length)) s'
    { h with state := .finalize, receiver := none } _ _ _ rfl ?_ ha.1 (by simp)
  rw [hps (st := .bodyDetermine) hst]
  show responseBodyDetermine e _ = _
  rw [hm h evs _]
  have hc : (decide (t.requestMethodNumber = .head) ||
      ((t.responseStatusNumber.inRange 100 199 || t.responseStatusNumber.eqNum 204 ||
        t.responseStatusNumber.eqNum 304) && (t.responseHeaders.getNocaseNozero (b! "transfer-encoding")).isNone &&
        (t.responseHeaders.getNocaseNozero (b! "content-length")).isNone)) = true := by
    have hf := hr.framed
    unfold Response.Framed at hf
    rw [hbody] at hf
    rcases hf with hf | ⟨hcode, h1, h2⟩
    · rw [hf]; rfl
    · rw [answer_lookup_absent hr t _ ht h1, answer_lookup_absent hr t _ ht h2, hn]
      rcases hcode with hcode | hcode <;> rw [hcode] <;> simp [ResponseNumber.eqNum]
  unfold responseBody responseNoBody
  rw [M.bind_bind, rp_tx_bind, if_pos (by simpa using hc), M.bind_bind, rp_put_bind, rp_setResp_bind, rp_state_bind, rp_resp]
  rw [show decide (({ h with state := .finalize } : Half).state ≠ .finalize) = false from by simp]
  refine (M.when_false_bind _ _ _).trans ?_
  rw [headersDone_rp hcb hr _ _ _ _ _ _ _ (by exact hrc) (by exact ht)]

theorem answer_determine_absent {e : Env} (hcb : CallbacksOK e) {r : Response} (s : Conn)
    (h : Half) (t : Tx) (evs : List Event) (done blk rest : Bytes)
    (hr : r.WellFormed (decide (t.requestMethodNumber = .head))) (hbody : r.body = .absent)
    (hst : h.state = .bodyDetermine) (ha : Alive h) (hrc : h.receiver = some .responseHeaderData)
    (ht : t.responseHeaders = storedTable HFlag.FIELD_REPEATED (fieldsOf r.headers))
    (hm : t.requestMethodNumber ≠ .connect) (hn : t.responseStatusNumber = .valid r.code)
    (he : t.requestHeaders.getNocase (b! "expect") = none ∨ ¬ (400 ≤ r.code ∧ r.code ≤ 499)) :
    responseStep e (rp s h t evs (win (done ++ blk) rest done.length)) = (.ok none,
      rp s { h with state := .finalize, statePrevious := .finalize, receiver := none }
        { t with
          responseTransferCoding := .noBody, responseContentEncoding := .none, responseContentEncodingProcessing := .none }
        (evs ++ [.data .responseHeaderData s.txs.response (.ofBytes blk), .tx .responseHeaders s.txs.response])
        (win (done ++ blk) rest (done ++ blk).length)) :=
  answer_determine_absent_via hcb s s h t evs done blk rest hr hbody hst ha hrc ht (settles_plain s hm hn hr.code.1 he) hn

/-- There is a body, unless it is empty. -/
theorem framing_rp {e : Env} (s : Conn) (h : Half) (t : Tx) (evs : List Event) (inp : PData)
    (te cl : Option Header) (hf : t.requestMethodNumber ≠ .head) (hst : h.state = .bodyDetermine)
    (hc : te.isSome ∨ cl.isSome) :
    responseBody e te cl (rp s h t evs inp) = (responseFraming e te cl >>= fun _ => stateResponseHeaders e) (rp s h t evs inp) := by
  unfold responseBody responseNoBody
  rw [M.bind_bind, rp_tx_bind, if_neg (by
    rcases hc with hc | hc
    · cases te <;> simp_all
    · cases cl <;> simp_all), M.pure_bind_run, rp_state_bind, rp_resp, hst]
  rfl

theorem length_rp {e : Env} {x : Header} {content : Bytes} (s : Conn) (h : Half) (t : Tx) (evs : List Event) (inp : PData)
    (hx : parseContentLength x.value = some content.length) :
    responseLength e x (rp s h t evs inp) = (.ok (), rp s { h with
        contentLength := some content.length, bodyDataLeft := some content.length
        state := if content = [] then .finalize else .bodyIdentityClKnown }
      { t with
        flags := if isSet x.flags Flag.FIELD_REPEATED then setFlag t.flags Flag.REQUEST_SMUGGLING else t.flags
        responseContentLength := some content.length
        responseProgress := if content = [] then t.responseProgress else .body
        responseTransferCoding := .identity } evs inp) := by
  unfold responseLength
  rw [hx]
  dsimp only
  rw [rp_modify_bind, rp_setResp_bind]
  cases content with
  | nil =>
    refine (rp_setResp _ _ _ _ _ _).trans ?_
    simp only [if_true]
    split <;> rfl
  | cons c cs =>
    refine (rp_setResp_bind _ _ _ _ _ _ _).trans ?_
    rw [rp_modify]
    dsimp only
    split <;> rfl

theorem answer_determine_sized_via {e : Env} (hcb : CallbacksOK e) {r : Response} (s s' : Conn)
    (h : Half) (t : Tx) (evs : List Event) (done blk rest content : Bytes)
    (hr : r.WellFormed (decide (t.requestMethodNumber = .head))) (hbody : r.body = .sized content)
    (hst : h.state = .bodyDetermine) (ha : Alive h) (hrc : h.receiver = some .responseHeaderData)
    (ht : t.responseHeaders = storedTable HFlag.FIELD_REPEATED (fieldsOf r.headers))
    (hm : Settles e s s' t) :
    ∃ fl ct, responseStep e (rp s h t evs (win (done ++ blk) rest done.length)) = (.ok none,
      rp s' { h with
          contentLength := some content.length, bodyDataLeft := some content.length
          state := if content = [] then .finalize else .bodyIdentityClKnown
          statePrevious := if content = [] then .finalize else .bodyIdentityClKnown, receiver := none }
        { t with
          responseContentType := ct, flags := fl, responseContentLength := some content.length
          responseProgress := if content = [] then t.responseProgress else .body
          responseTransferCoding := .identity, responseContentEncoding := .none, responseContentEncodingProcessing := .none }
        (evs ++ [.data .responseHeaderData s'.txs.response (.ofBytes blk), .tx .responseHeaders s'.txs.response])
        (win (done ++ blk) rest (done ++ blk).length)) := by
  have hf := hr.framed
  unfold Response.Framed at hf
  rw [hbody] at hf
  obtain ⟨hhead, hte, -, -, -⟩ := hf
  obtain ⟨x, hx, hx'⟩ := answer_length hr hbody t _ ht
  refine ⟨if isSet x.flags Flag.FIELD_REPEATED then setFlag t.flags Flag.REQUEST_SMUGGLING else t.flags,
    t.responseType.or t.responseContentType, ?_⟩
  refine rp_round (s0 := rp s h t evs (win (done ++ blk) rest done.length)) s'
    { h with
      contentLength := some content.length, bodyDataLeft := some content.length
      state := if content = [] then .finalize else .bodyIdentityClKnown, receiver := none } _ _ _ rfl ?_ ha.1
    (by dsimp only; split <;> simp)
  rw [hps (st := .bodyDetermine) hst]
  show responseBodyDetermine e _ = _
  rw [hm h evs _, answer_lookup_absent hr t _ ht hte, hx,
    framing_rp s' h t evs _ _ _ (by simpa using hhead) hst (.inr rfl)]
  unfold responseFraming
  rw [M.bind_bind, rp_tx_bind, M.bind_bind, rp_put_bind, show announcesChunked none = false from rfl, if_neg (by simp)]
  rw [M.bind_ok (length_rp _ _ _ _ _ hx'), headersDone_rp hcb hr _ _ _ _ _ _ _ (by exact hrc) (by exact ht)]

theorem answer_determine_sized {e : Env} (hcb : CallbacksOK e) {r : Response} (s : Conn)
    (h : Half) (t : Tx) (evs : List Event) (done blk rest content : Bytes)
    (hr : r.WellFormed (decide (t.requestMethodNumber = .head))) (hbody : r.body = .sized content)
    (hst : h.state = .bodyDetermine) (ha : Alive h) (hrc : h.receiver = some .responseHeaderData)
    (ht : t.responseHeaders = storedTable HFlag.FIELD_REPEATED (fieldsOf r.headers))
    (hm : t.requestMethodNumber ≠ .connect) (hn : t.responseStatusNumber = .valid r.code)
    (he : t.requestHeaders.getNocase (b! "expect") = none ∨ ¬ (400 ≤ r.code ∧ r.code ≤ 499)) :
    ∃ fl ct, responseStep e (rp s h t evs (win (done ++ blk) rest done.length)) = (.ok none,
      rp s { h with
          contentLength := some content.length, bodyDataLeft := some content.length
          state := if content = [] then .finalize else .bodyIdentityClKnown
          statePrevious := if content = [] then .finalize else .bodyIdentityClKnown, receiver := none }
        { t with
          responseContentType := ct, flags := fl, responseContentLength := some content.length
          responseProgress := if content = [] then t.responseProgress else .body
          responseTransferCoding := .identity, responseContentEncoding := .none, responseContentEncodingProcessing := .none }
        (evs ++ [.data .responseHeaderData s.txs.response (.ofBytes blk), .tx .responseHeaders s.txs.response])
        (win (done ++ blk) rest (done ++ blk).length)) :=
  answer_determine_sized_via hcb s s h t evs done blk rest content hr hbody hst ha hrc ht (settles_plain s hm hn hr.code.1 he)

theorem answer_determine_chunked_via {e : Env} (hcb : CallbacksOK e) {r : Response} (s s' : Conn)
    (h : Half) (t : Tx) (evs : List Event) (done blk rest : Bytes) {chunks : List BodyChunk} {last : Bytes}
    {trailer : List HeaderLine}
    (hr : r.WellFormed (decide (t.requestMethodNumber = .head))) (hbody : r.body = .chunked chunks last trailer)
    (hst : h.state = .bodyDetermine) (ha : Alive h) (hrc : h.receiver = some .responseHeaderData)
    (ht : t.responseHeaders = storedTable HFlag.FIELD_REPEATED (fieldsOf r.headers))
    (hm : Settles e s s' t) :
    ∃ fl ct, responseStep e (rp s h t evs (win (done ++ blk) rest done.length)) = (.ok none,
      rp s' { h with state := .bodyChunkedLength, statePrevious := .bodyChunkedLength, receiver := none }
        { t with
          responseContentType := ct, flags := fl, responseProgress := .body
          responseTransferCoding := .chunked, responseContentEncoding := .none, responseContentEncodingProcessing := .none }
        (evs ++ [.data .responseHeaderData s'.txs.response (.ofBytes blk), .tx .responseHeaders s'.txs.response])
        (win (done ++ blk) rest (done ++ blk).length)) := by
  have hf := hr.framed
  unfold Response.Framed at hf
  rw [hbody] at hf
  obtain ⟨hhead, -, -, -⟩ := hf
  have hx := answer_chunked hr hbody t _ ht
  generalize hte : t.responseHeaders.getNocaseNozero (b! "transfer-encoding") = te at hx
  generalize hcl : t.responseHeaders.getNocaseNozero (b! "content-length") = cl
  refine ⟨if cl.isSome then setFlag t.flags Flag.REQUEST_SMUGGLING else t.flags,
    t.responseType.or t.responseContentType, ?_⟩
  refine rp_round (s0 := rp s h t evs (win (done ++ blk) rest done.length)) s'
    { h with state := .bodyChunkedLength, receiver := none } _ _ _ rfl ?_ ha.1 (by simp)
  rw [hps (st := .bodyDetermine) hst]
  show responseBodyDetermine e _ = _
  have hsome : te.isSome := by cases te with
    | none => cases hx
    | some x => rfl
  rw [hm h evs _, hte, hcl,
    framing_rp s' h t evs _ _ _ (by simpa using hhead) hst (.inl hsome)]
  unfold responseFraming
  rw [M.bind_bind, rp_tx_bind, M.bind_bind, rp_put_bind, hx, if_pos rfl]
  unfold responseChunked
  rw [M.bind_bind, rp_modify_bind, rp_setResp_bind,
    headersDone_rp hcb hr _ _ _ _ _ _ _ (by exact hrc) (by dsimp only; split <;> exact ht)]
  dsimp only
  split <;> rfl

theorem answer_determine_chunked {e : Env} (hcb : CallbacksOK e) {r : Response} (s : Conn)
    (h : Half) (t : Tx) (evs : List Event) (done blk rest : Bytes) {chunks : List BodyChunk} {last : Bytes}
    {trailer : List HeaderLine}
    (hr : r.WellFormed (decide (t.requestMethodNumber = .head))) (hbody : r.body = .chunked chunks last trailer)
    (hst : h.state = .bodyDetermine) (ha : Alive h) (hrc : h.receiver = some .responseHeaderData)
    (ht : t.responseHeaders = storedTable HFlag.FIELD_REPEATED (fieldsOf r.headers))
    (hm : t.requestMethodNumber ≠ .connect) (hn : t.responseStatusNumber = .valid r.code)
    (he : t.requestHeaders.getNocase (b! "expect") = none ∨ ¬ (400 ≤ r.code ∧ r.code ≤ 499)) :
    ∃ fl ct, responseStep e (rp s h t evs (win (done ++ blk) rest done.length)) = (.ok none,
      rp s { h with state := .bodyChunkedLength, statePrevious := .bodyChunkedLength, receiver := none }
        { t with
          responseContentType := ct, flags := fl, responseProgress := .body
          responseTransferCoding := .chunked, responseContentEncoding := .none, responseContentEncodingProcessing := .none }
        (evs ++ [.data .responseHeaderData s.txs.response (.ofBytes blk), .tx .responseHeaders s.txs.response])
        (win (done ++ blk) rest (done ++ blk).length)) :=
  answer_determine_chunked_via hcb s s h t evs done blk rest hr hbody hst ha hrc ht (settles_plain s hm hn hr.code.1 he)

/-! The body. -/

/-- Body data is handed out; the end of the body is not reported. -/
theorem rp_bodyData {e : Env} (hcb : CallbacksOK e) (s : Conn) (h : Half) (t : Tx) (evs : List Event) (inp : PData)
    (d : Option Bytes) (henc : t.responseContentEncodingProcessing = .none)
    (hlen : t.responseEntityLen + (d.getD []).length < 2 ^ 64) :
    responseBodyData e d (rp s h t evs inp) = (.ok (), rp s h
      { t with
        responseMessageLen := wrapAdd t.responseMessageLen (d.getD []).length
        responseEntityLen := t.responseEntityLen + (d.getD []).length }
      (evs ++ (if d.getD [] = [] then [] else answerBodyCallbacks s.txs.response (d.getD []))) inp) := by
  have hw : wrapAdd t.responseEntityLen (d.getD []).length = t.responseEntityLen + (d.getD []).length :=
    Nat.mod_eq_of_lt hlen
  unfold responseBodyData
  rw [rp_tx_bind, rp_put_bind, henc]
  dsimp only
  unfold responsePlainBody
  rw [rp_modify_bind]
  dsimp only
  rw [hw]
  unfold responseRunHookBodyData
  have he : ({ data := d } : PData).isEmpty = decide (d.getD [] = []) := by
    cases d with
    | none => rfl
    | some x => cases x <;> rfl
  rw [he]
  by_cases h0 : d.getD [] = []
  · simp only [h0, decide_true, if_true, List.append_nil]
    rfl
  · simp only [h0, decide_false, if_false, Bool.false_eq_true]
    rw [rp_tx_bind, rp_state_bind, rp_response, rp_emit_bind _ _ _ _ _ hcb, rp_emit _ _ _ _ _ hcb, List.append_assoc]
    cases d with
    | none => exact absurd rfl h0
    | some x => rfl

/-- A sized body, all of it. -/
theorem answer_identity {e : Env} (hcb : CallbacksOK e) (s : Conn) (h : Half) (t : Tx) (evs : List Event)
    (done content rest : Bytes) (q : Nat) (hst : h.state = .bodyIdentityClKnown) (ha : Alive h)
    (hl : h.bodyDataLeft = some content.length) (hne : content ≠ [])
    (henc : t.responseContentEncodingProcessing = .none) (hlen : t.responseEntityLen + content.length < 2 ^ 64) :
    responseStep e (rp s h t evs (win done (content ++ rest) q)) = (.ok none,
      rp s { h with
          bytesConsumed := (done ++ content).length, bodyDataLeft := some 0, state := .finalize, statePrevious := .finalize }
        { t with
          responseMessageLen := wrapAdd (wrapAdd t.responseMessageLen content.length) 0
          responseEntityLen := t.responseEntityLen + content.length }
        (evs ++ answerBodyCallbacks s.txs.response content)
        (win (done ++ content) rest q)) := by
  have hpos : content.length ≠ 0 := by rw [ne_eq, List.length_eq_zero_iff]; exact hne
  refine rp_round (s0 := rp s h t evs (win done (content ++ rest) q)) s
    { h with bytesConsumed := (done ++ content).length, bodyDataLeft := some 0, state := .finalize } _ _ _ rfl ?_ ha.1
    (by simp)
  rw [hps (st := .bodyIdentityClKnown) hst]
  show responseBodyIdentityClKnown e _ = _
  unfold responseBodyIdentityClKnown
  rw [rp_state_bind, rp_resp, if_neg ha.2]
  unfold responseIdentityOpen
  rw [rp_state_bind, rp_resp, hl]
  dsimp only
  rw [rp_input, win_len, List.length_append, Nat.min_eq_right (by omega), if_neg hpos]
  unfold responseIdentityData
  rw [M.bind_bind, rp_state_bind, rp_input, win_isGap, if_neg (by simp), M.bind_bind]
  rw [M.bind_ok (show inputPrefix content.length (rp s h t evs (win done (content ++ rest) q)) = (.ok content, _) from by
    unfold inputPrefix
    rw [rp_input, win_asSlice, if_pos (by simp), List.take_left])]
  rw [M.bind_ok (rp_bodyData hcb _ _ _ _ _ (some content) henc hlen)]
  dsimp only [Option.getD]
  rw [rp_consume_bind, win_consume, rp_setResp_bind, Nat.sub_self, if_neg (by simp), rp_setResp_bind]
  rw [rp_bodyData hcb _ _ _ _ _ none (by exact henc) (by simpa using hlen), if_neg hne]
  dsimp only [Option.getD]
  rw [if_pos rfl, List.append_nil]
  rfl

theorem answer_sizeLine {e : Env} (s : Conn) (h : Half) (t : Tx) (evs : List Event) (done line rest : Bytes) (q n : Nat)
    (hb : h.buf = []) (hl : SizeLine line n) (hn : n ≤ 2147483647) (hst : h.state = .bodyChunkedLength) :
    handleResponseState e (rp s h t evs (win done (line ++ rest) q)) =
      (match (some n : Option Nat) with
      | none => pure ()
      | some 0 => do
        setResp fun h => { h with state := .headers }
        modifyResponse e fun t => { t with responseProgress := .trailer }
      | some _ => setResp fun h => { h with state := .bodyChunkedData } : M Unit)
      (rp s { h with bytesConsumed := (done ++ line).length, chunkedLength := some n }
        { t with responseMessageLen := wrapAdd t.responseMessageLen line.length } evs (win (done ++ line) rest q)) := by
  obtain ⟨ext, hp⟩ := sizeLine_parse (buf := []) hl hn (by simp)
  rw [List.nil_append] at hp
  rw [hps (st := .bodyChunkedLength) hst]
  show responseBodyChunkedLength e _ = _
  unfold responseBodyChunkedLength
  rw [rp_state_bind, rp_input, win_asSlice, responseChunkedLengthLoop_line (sizeLine_line hl rest), rp_tx_bind,
    rp_consume_bind, win_consume, rp_state_bind, rp_resp]
  rw [show (decide (({ h with bytesConsumed := (win (done ++ line) rest q).position } : Half).buf ≠ [])) = false from by
    simp [hb]]
  refine (M.when_false_bind _ _ _).trans ?_
  rw [if_neg (by rw [sizeLine_not_ctl hl]; simp)]
  unfold responseChunkLine
  rw [rp_state_bind, rp_resp]
  dsimp only
  rw [hb, List.nil_append, rp_modify_bind, hp]
  dsimp only
  rw [rp_setResp_bind]
  rfl

theorem answer_size {e : Env} (s : Conn) (h : Half) (t : Tx) (evs : List Event) (done line rest : Bytes) (q n : Nat)
    (hst : h.state = .bodyChunkedLength) (ha : Alive h) (hb : h.buf = []) (hl : SizeLine line n) (hn : n ≤ 2147483647)
    (hn0 : n ≠ 0) :
    responseStep e (rp s h t evs (win done (line ++ rest) q)) = (.ok none,
      rp s { h with
          bytesConsumed := (done ++ line).length, chunkedLength := some n
          state := .bodyChunkedData, statePrevious := .bodyChunkedData }
        { t with responseMessageLen := wrapAdd t.responseMessageLen line.length } evs (win (done ++ line) rest q)) := by
  have h1 := answer_sizeLine (e := e) s h t evs done line rest q n hb hl hn hst
  obtain ⟨n, rfl⟩ := Nat.exists_eq_succ_of_ne_zero hn0
  exact rp_round s { h with bytesConsumed := (done ++ line).length, chunkedLength := some (n + 1), state := .bodyChunkedData }
    { t with responseMessageLen := wrapAdd t.responseMessageLen line.length } evs (win (done ++ line) rest q) (by rfl) h1 ha.1
    (by simp)

theorem answer_last {e : Env} (s : Conn) (h : Half) (t : Tx) (evs : List Event) (done line rest : Bytes) (q : Nat)
    (hst : h.state = .bodyChunkedLength) (hpr : h.statePrevious = .bodyChunkedLength) (ha : Alive h) (hb : h.buf = [])
    (hl : SizeLine line 0) :
    responseStep e (rp s h t evs (win done (line ++ rest) q)) = (.ok none,
      rp s { h with
          bytesConsumed := (done ++ line).length, chunkedLength := some 0
          state := .headers, statePrevious := .headers, receiver := some .responseTrailerData }
        { t with responseMessageLen := wrapAdd t.responseMessageLen line.length, responseProgress := .trailer } evs
        (win (done ++ line) rest (done ++ line).length)) := by
  have h1 := answer_sizeLine (e := e) s h t evs done line rest q 0 hb hl (by omega) hst
  have h2 := h1.trans (show (setResp (fun h => { h with state := .headers }) >>= fun _ =>
    modifyResponse e fun t => { t with responseProgress := .trailer }) _ = _ from by rw [rp_setResp_bind, rp_modify])
  have := rp_round_headers s _ _ _ _ (by rfl) h2 ha.1 rfl (by dsimp only; rw [hpr]; decide) .responseTrailerData
    (.inr ⟨rfl, rfl⟩)
  rw [this]
  rfl

theorem answer_data {e : Env} (hcb : CallbacksOK e) (s : Conn) (h : Half) (t : Tx) (evs : List Event)
    (done data rest : Bytes) (q : Nat) (hst : h.state = .bodyChunkedData) (ha : Alive h)
    (hl : h.chunkedLength = some data.length) (hne : data ≠ [])
    (henc : t.responseContentEncodingProcessing = .none) (hlen : t.responseEntityLen + data.length < 2 ^ 64) :
    responseStep e (rp s h t evs (win done (data ++ rest) q)) = (.ok none,
      rp s { h with
          bytesConsumed := (done ++ data).length, chunkedLength := some 0
          state := .bodyChunkedDataEnd, statePrevious := .bodyChunkedDataEnd }
        { t with
          responseMessageLen := wrapAdd t.responseMessageLen data.length
          responseEntityLen := t.responseEntityLen + data.length }
        (evs ++ answerBodyCallbacks s.txs.response data) (win (done ++ data) rest q)) := by
  have hpos : data.length ≠ 0 := by rw [ne_eq, List.length_eq_zero_iff]; exact hne
  refine rp_round (s0 := rp s h t evs (win done (data ++ rest) q)) s { h with
      bytesConsumed := (done ++ data).length, chunkedLength := some 0, state := .bodyChunkedDataEnd }
    _ _ _ rfl ?_ ha.1 (by simp)
  rw [hps (st := .bodyChunkedData) hst]
  show responseBodyChunkedData e _ = _
  unfold responseBodyChunkedData
  have hm : min (win done (data ++ rest) q).len (h.chunkedLength.getD 0) = data.length := by
    rw [win_len, hl, List.length_append]
    exact Nat.min_eq_right (by show data.length ≤ _; omega)
  rw [rp_state_bind, rp_resp, rp_input]
  generalize min (win done (data ++ rest) q).len (h.chunkedLength.getD 0) = m at hm
  subst hm
  rw [if_neg hpos]
  rw [M.bind_ok (show inputPrefix data.length (rp s h t evs (win done (data ++ rest) q)) = (.ok data, _) from by
    unfold inputPrefix
    rw [rp_input, win_asSlice, if_pos (by simp), List.take_left])]
  rw [M.bind_ok (rp_bodyData hcb _ _ _ _ _ (some data) henc hlen)]
  rw [rp_consume_bind, win_consume, rp_setResp_bind, rp_state_bind, rp_resp]
  dsimp only [Option.getD]
  rw [hl, if_neg hne]
  dsimp only [Option.map]
  rw [if_pos (by rw [Nat.sub_self]), Nat.sub_self]
  rfl

theorem answer_dataEnd {e : Env} (s : Conn) (h : Half) (t : Tx) (evs : List Event) (done rest : Bytes) (q : Nat)
    (hst : h.state = .bodyChunkedDataEnd) (ha : Alive h) :
    responseStep e (rp s h t evs (win done ([13, 10] ++ rest) q)) = (.ok none,
      rp s { h with
          bytesConsumed := (done ++ [13, 10]).length, state := .bodyChunkedLength, statePrevious := .bodyChunkedLength }
        { t with responseMessageLen := wrapAdd t.responseMessageLen 2 } evs (win (done ++ [13, 10]) rest q)) := by
  refine rp_round (s0 := rp s h t evs (win done ([13, 10] ++ rest) q)) s
    { h with bytesConsumed := (done ++ [13, 10]).length, state := .bodyChunkedLength }
    { t with responseMessageLen := wrapAdd t.responseMessageLen 2 } evs (win (done ++ [13, 10]) rest q) rfl ?_ ha.1
    (by simp)
  rw [hps (st := .bodyChunkedDataEnd) hst]
  show responseBodyChunkedDataEnd e _ = _
  unfold responseBodyChunkedDataEnd
  have h1 : takeTillLf ([13, 10] ++ rest) = .ok rest [13, 10] := takeTillLf_line (x := [13]) (by decide)
  rw [rp_tx_bind, rp_state_bind, rp_input, win_asSlice, h1]
  dsimp only
  rw [rp_consume_bind, win_consume, rp_put_bind]
  rfl

/-- The chunks of a body. -/
theorem answer_chunks {e : Env} (hcb : CallbacksOK e) (s : Conn) (cs : List BodyChunk) (hv : ∀ c ∈ cs, c.Valid) :
    ∀ (h : Half) (t : Tx) (evs : List Event) (done rest : Bytes) (q : Nat),
    h.state = .bodyChunkedLength → h.statePrevious = .bodyChunkedLength → Alive h → h.buf = [] →
    t.responseContentEncodingProcessing = .none → t.responseEntityLen + (carried cs).length < 2 ^ 64 →
    ∃ k b cl ml, Rounds (responseStep e) k (rp s h t evs (win done (bytesOf (encoded cs) ++ rest) q))
      (rp s { h with bytesConsumed := b, chunkedLength := cl }
        { t with responseMessageLen := ml, responseEntityLen := t.responseEntityLen + (carried cs).length }
        (evs ++ cs.flatMap fun c => answerBodyCallbacks s.txs.response c.data)
        (win (done ++ bytesOf (encoded cs)) rest q)) := by
  induction cs with
  | nil =>
    intro h t evs done rest q _ _ _ _ _ _
    refine ⟨0, h.bytesConsumed, h.chunkedLength, t.responseMessageLen, ?_⟩
    have : rp s { h with bytesConsumed := h.bytesConsumed, chunkedLength := h.chunkedLength }
        { t with responseMessageLen := t.responseMessageLen, responseEntityLen := t.responseEntityLen + (carried []).length }
        (evs ++ ([] : List BodyChunk).flatMap fun c => answerBodyCallbacks s.txs.response c.data)
        (win (done ++ bytesOf (encoded [])) rest q) = rp s h t evs (win done (bytesOf (encoded []) ++ rest) q) := by
      simp [bytesOf, encoded, carried]
    rw [this]
    exact .zero _
  | cons c cs ih =>
    intro h t evs done rest q hst hpr ha hb henc hlen
    obtain ⟨hl, hne, hmax⟩ := hv c (by simp)
    have hbytes : bytesOf (encoded (c :: cs)) = c.line ++ (c.data ++ ([13, 10] ++ bytesOf (encoded cs))) := by
      rw [encoded_cons, bytesOf_cons_line, bytesOf_append, bytesOf_byte, List.append_assoc]
    have hcar : (carried (c :: cs)).length = c.data.length + (carried cs).length := by simp [carried]
    rw [hcar] at hlen
    have r1 := answer_size (e := e) s h t evs done c.line (c.data ++ ([13, 10] ++ (bytesOf (encoded cs) ++ rest))) q
      c.data.length hst ha hb hl hmax (by rw [ne_eq, List.length_eq_zero_iff]; exact hne)
    have r2 := answer_data (e := e) hcb s { h with
          bytesConsumed := (done ++ c.line).length, chunkedLength := some c.data.length
          state := .bodyChunkedData, statePrevious := .bodyChunkedData }
        { t with responseMessageLen := wrapAdd t.responseMessageLen c.line.length } evs (done ++ c.line) c.data
        ([13, 10] ++ (bytesOf (encoded cs) ++ rest)) q rfl ha rfl hne henc (by show t.responseEntityLen + _ < _; omega)
    have r3 := answer_dataEnd (e := e) s { h with
          bytesConsumed := (done ++ c.line ++ c.data).length, chunkedLength := some 0
          state := .bodyChunkedDataEnd, statePrevious := .bodyChunkedDataEnd }
        { t with
          responseMessageLen := wrapAdd (wrapAdd t.responseMessageLen c.line.length) c.data.length
          responseEntityLen := t.responseEntityLen + c.data.length }
        (evs ++ answerBodyCallbacks s.txs.response c.data) (done ++ c.line ++ c.data) (bytesOf (encoded cs) ++ rest) q rfl ha
    obtain ⟨k, b, cl, ml, r4⟩ := ih (fun c hc => hv c (List.mem_cons_of_mem _ hc))
        { h with
          bytesConsumed := (done ++ c.line ++ c.data ++ [13, 10]).length, chunkedLength := some 0
          state := .bodyChunkedLength, statePrevious := .bodyChunkedLength }
        { t with
          responseMessageLen := wrapAdd (wrapAdd (wrapAdd t.responseMessageLen c.line.length) c.data.length) 2
          responseEntityLen := t.responseEntityLen + c.data.length }
        (evs ++ answerBodyCallbacks s.txs.response c.data) (done ++ c.line ++ c.data ++ [13, 10]) rest q rfl rfl ha hb henc
        (by show t.responseEntityLen + _ + _ < _; omega)
    refine ⟨k + 1 + 1 + 1, b, cl, ml, ?_⟩
    have r5 := Rounds.next r1 (Rounds.next r2 (Rounds.next r3 r4))
    rw [hbytes, hcar, List.flatMap_cons, ← Nat.add_assoc, ← List.append_assoc evs]
    have e1 : c.line ++ (c.data ++ ([13, 10] ++ bytesOf (encoded cs))) ++ rest =
      c.line ++ (c.data ++ ([13, 10] ++ (bytesOf (encoded cs) ++ rest))) := by simp
    have e2 : done ++ (c.line ++ (c.data ++ ([13, 10] ++ bytesOf (encoded cs)))) =
      done ++ c.line ++ c.data ++ [13, 10] ++ bytesOf (encoded cs) := by simp
    rw [e1, e2]
    have e3 : ({ h with bytesConsumed := b, chunkedLength := cl } : Half) =
      { h with bytesConsumed := b, chunkedLength := cl, state := .bodyChunkedLength, statePrevious := .bodyChunkedLength } := by
      rw [← hst]
      rw [hst, ← hpr]
    rw [e3]
    exact r5

/-- The trailer. -/
theorem answer_trailer {e : Env} (hcb : CallbacksOK e) (hs : List HeaderLine) (hw : ∀ h ∈ hs, h.WellFormed) (s : Conn)
    (h : Half) (t : Tx) (evs : List Event) (done rest : Bytes) (hst : h.state = .headers) (hh : h.header = none)
    (hrc : h.receiver = some .responseTrailerData) (ha : Alive h) (hp : t.responseProgress = .trailer)
    (hf : AnswerFollows hs rest) :
    responseStep e (rp s h t evs (win done (renderBlock hs ++ rest) done.length)) = (.ok none,
      rp s { h with
          header := none, bytesConsumed := (done ++ renderBlock hs).length, receiver := none
          state := .finalize, statePrevious := .finalize }
        { t with
          responseHeaders := ((fieldsOf hs).foldl (fun s h => s.1.store s.2 h) (t.responseHeaders, t.responseHeaderRepetitions)).1
          responseHeaderRepetitions :=
            ((fieldsOf hs).foldl (fun s h => s.1.store s.2 h) (t.responseHeaders, t.responseHeaderRepetitions)).2 }
        (evs ++ [.data .responseTrailerData s.txs.response (.ofBytes (renderBlock hs)), .tx .responseTrailer s.txs.response])
        (win (done ++ renderBlock hs) rest (done ++ renderBlock hs).length)) := by
  obtain ⟨rem, eoh, h1, h2, h3⟩ := parseResponseHeaders_block t hs hw rest hf
  generalize hta : ({ t with
          responseHeaders := ((fieldsOf hs).foldl (fun s h => s.1.store s.2 h) (t.responseHeaders, t.responseHeaderRepetitions)).1
          responseHeaderRepetitions :=
            ((fieldsOf hs).foldl (fun s h => s.1.store s.2 h) (t.responseHeaders, t.responseHeaderRepetitions)).2 } : Tx) = ta
    at h1
  have hpa : ta.responseProgress = .trailer := by rw [← hta]; exact hp
  have key : handleResponseState e (rp s h t evs (win done (renderBlock hs ++ rest) done.length)) = (.ok (), rp s { h with
          header := none, bytesConsumed := (done ++ renderBlock hs).length, receiver := none, state := .finalize } ta
        (evs ++ [.data .responseTrailerData s.txs.response (.ofBytes (renderBlock hs)), .tx .responseTrailer s.txs.response])
        (win (done ++ renderBlock hs) rest (done ++ renderBlock hs).length)) := by
    rw [hps (st := .headers) hst]
    show responseHeaders e _ = _
    unfold responseHeaders
    rw [rp_state_bind, rp_resp, if_neg ha.2, hh]
    dsimp only [Option.getD]
    rw [List.nil_append, rp_input, win_asSlice, rp_setResp_bind, withResponse_rp _ _ _ _ _ _ _ _ _ h1]
    dsimp only
    rw [if_pos h2, win_len, h3, rp_consume_bind, win_consume]
    unfold responseHeadersDone
    rw [rp_tx_bind, hpa, if_neg (by decide)]
    unfold responseTrailer
    rw [M.bind_ok (rp_finalizeClear _ _ _ _ hcb done (renderBlock hs) rest .responseTrailerData (by exact hrc)),
      rp_state_bind, rp_response, rp_hook_bind _ _ _ _ _ hcb, rp_setResp, List.append_assoc]
    rfl
  subst hta
  exact rp_round (s0 := rp s h t evs (win done (renderBlock hs ++ rest) done.length)) s _ _ _ _ rfl key ha.1 (by simp)

/-! The end of the response. -/

/-- The store after the current response. -/
def answeredTxs (auto : Bool) (txs : Txs) (t : Tx) : Txs :=
  { (if auto then (txs.set txs.response t).remove txs.response else txs.set txs.response t) with response := txs.response + 1 }

/-- The parser after the current response: this response side, this transaction for it, these further callbacks run and
this window. -/
def answered (auto : Bool) (s : Conn) (h : Half) (t : Tx) (evs : List Event) (inp : PData) : Conn :=
  { s with resp := h, txs := answeredTxs auto s.txs t, trace := s.trace ++ evs, input := inp }

theorem complete_rp {e : Env} (hcb : CallbacksOK e) (s : Conn) (h : Half) (t : Tx) (evs : List Event) (inp : PData)
    (hr : h.receiver = none) (hst : h.status ≠ .dataOther) (hblk : s.responseDataOtherAtTxEnd = false)
    (hq : t.requestProgress = .complete) (hp : t.responseProgress ≠ .complete)
    (henc : t.responseContentEncodingProcessing = .none) (hlen : t.responseEntityLen < 2 ^ 64) :
    ∃ ml, stateResponseComplete e (rp s h t evs inp) = (.ok (),
      answered e.cfg.txAutoDestroy s { h with state := .idle } { t with responseMessageLen := ml, responseProgress := .complete }
        (evs ++ [.tx .responseComplete s.txs.response, .tx .transactionComplete s.txs.response])
        inp) := by
  have h1 : ∃ ml, (M.when (t.responseTransferCoding != .noBody) (do
        let _ ← attempt (responseBodyData e none)
        pure ())) (rp s h { t with responseProgress := .complete } evs inp) =
      (.ok (), rp s h { t with responseMessageLen := ml, responseProgress := .complete } evs inp) := by
    cases (t.responseTransferCoding != .noBody) with
    | false => exact ⟨t.responseMessageLen, rfl⟩
    | true =>
      refine ⟨wrapAdd t.responseMessageLen 0, ?_⟩
      have h2 := rp_bodyData hcb s h { t with responseProgress := .complete } evs inp none henc (by simpa using hlen)
      show (attempt (responseBodyData e none) >>= fun _ => pure ()) _ = _
      rw [M.bind_ok (M.attempt_ok h2)]
      dsimp only [Option.getD]
      rw [if_pos rfl, List.append_nil]
      rfl
  obtain ⟨ml, h1⟩ := h1
  refine ⟨ml, ?_⟩
  generalize ht' : ({ t with responseMessageLen := ml, responseProgress := .complete } : Tx) = t' at h1
  have hc' : t'.isComplete = true := by rw [← ht']; simp [Tx.isComplete, hq]
  have h2 : completeResponse e t (rp s h t evs inp) = (.ok (),
      rp s h t' (evs ++ [.tx .responseComplete s.txs.response]) inp) := by
    unfold completeResponse
    rw [rp_put_bind, M.bind_ok h1, rp_state_bind, rp_response, rp_hook_bind _ _ _ _ _ hcb,
      rp_finalizeClear_none _ _ _ _ _ hr]
  unfold stateResponseComplete
  rw [rp_tx_bind, show (t.responseProgress != .complete) = true from by simpa using hp]
  rw [M.bind_ok (show M.when true (completeResponse e t) _ = _ from h2)]
  have h3 : requestParserCheckWaiting (rp s h t' (evs ++ [.tx .responseComplete s.txs.response]) inp) =
      (.ok (), rp s h t' (evs ++ [.tx .responseComplete s.txs.response]) inp) := by
    unfold requestParserCheckWaiting
    rw [rp_state_bind, rp_resp, if_neg (fun x => hst x.1), if_neg (by
      show ¬ s.responseDataOtherAtTxEnd = true
      rw [hblk]; simp)]
    rfl
  rw [M.bind_ok h3, rp_state_bind, rp_response]
  have h4 : finalizeTx e s.txs.response (rp s h t' (evs ++ [.tx .responseComplete s.txs.response]) inp) =
      (.ok (), rp s h t' (evs ++ [.tx .responseComplete s.txs.response, .tx .transactionComplete s.txs.response]) inp) := by
    unfold finalizeTx
    rw [rp_state_bind, rp_get]
    dsimp only
    rw [hc']
    refine (rp_hook s h t' _ inp hcb .transactionComplete).trans ?_
    rw [List.append_assoc]
    rfl
  rw [M.bind_ok h4]
  have h5 : ∀ evs', ((rp s h t' evs' inp).txs).responseNext e.cfg.txAutoDestroy = answeredTxs e.cfg.txAutoDestroy s.txs t' := by
    intro evs'
    unfold Txs.responseNext Txs.checkFree answeredTxs
    rw [rp_response, rp_get]
    dsimp only
    rw [hc']
    cases e.cfg.txAutoDestroy <;> rfl
  unfold responseNext
  rw [M.bind_modify, h5]
  rfl

theorem answered_round {e : Env} {s0 : Conn} {auto : Bool} (s : Conn) (h : Half) (t : Tx) (evs : List Event) (inp : PData)
    (hg : s0.input.isGap = false) (h1 : handleResponseState e s0 = (.ok (), answered auto s h t evs inp))
    (ht : h.status ≠ .tunnel) (hs : h.state ≠ .headers) :
    responseStep e s0 = (.ok none, answered auto s { h with statePrevious := h.state } t evs inp) := by
  refine responseStep_ok (by rw [hg]; rfl) h1 ht ?_
  unfold responseHandleStateChange
  rw [M.bind_state]
  show (if h.statePrevious = h.state then (pure () : M Unit) else _) _ = _
  split
  next h' =>
    have : { h with statePrevious := h.state } = h := by
      cases h
      dsimp only at h'
      rw [h']
    rw [this]
    rfl
  next =>
    have : (h.state == State.headers) = false := by simpa using hs
    show (M.when (h.state == State.headers) _ >>= _) _ = _
    rw [this]
    rfl

/-- What may follow a response: nothing, or another one. -/
def UpcomingAnswer (rest : Bytes) : Prop :=
  rest = [] ∨ ∃ (head : Bool) (r : Response), r.WellFormed head ∧ ∃ rest', rest = r.line ++ [13, 10] ++ rest'

theorem answer_finalize {e : Env} (hcb : CallbacksOK e) (s : Conn) (h : Half) (t : Tx) (evs : List Event)
    (done rest : Bytes) (q : Nat) (hst : h.state = .finalize) (ha : Alive h) (hb : h.buf = []) (hn : UpcomingAnswer rest)
    (hr : h.receiver = none) (hso : h.status ≠ .dataOther) (hblk : s.responseDataOtherAtTxEnd = false)
    (hq : t.requestProgress = .complete) (hp : t.responseProgress ≠ .complete)
    (henc : t.responseContentEncodingProcessing = .none) (hlen : t.responseEntityLen < 2 ^ 64) :
    ∃ ml b, responseStep e (rp s h t evs (win done rest q)) = (.ok none,
      answered e.cfg.txAutoDestroy s { h with bytesConsumed := b, state := .idle, statePrevious := .idle }
        { t with responseMessageLen := ml, responseProgress := .complete }
        (evs ++ [.tx .responseComplete s.txs.response, .tx .transactionComplete s.txs.response])
        (win done rest q)) := by
  rcases hn with rfl | ⟨head, r, hrw, rest, rfl⟩
  · obtain ⟨ml, h1⟩ := complete_rp hcb s h t evs (win done [] q) hr hso hblk hq hp henc hlen
    refine ⟨ml, h.bytesConsumed, ?_⟩
    refine answered_round (s0 := rp s h t evs (win done [] q)) s { h with state := .idle } _ _ _ rfl ?_ ha.1 (by simp)
    rw [hps (st := .finalize) hst]
    show responseFinalize e _ = _
    unfold responseFinalize
    rw [rp_state_bind, rp_input, win_isGap, if_neg (by simp), rp_resp, if_neg ha.2, win_asSlice]
    dsimp only
    rw [h1]
  · obtain ⟨cs, hc⟩ := response_cons hrw.head
    obtain ⟨ml, h1⟩ := complete_rp hcb s { h with bytesConsumed := done.length } t evs
      (win done (r.line ++ [13, 10] ++ rest) q) hr hso hblk hq hp henc hlen
    refine ⟨ml, done.length, ?_⟩
    refine answered_round (s0 := rp s h t evs (win done (r.line ++ [13, 10] ++ rest) q)) s
      { h with bytesConsumed := done.length, state := .idle } _ _ _ rfl ?_ ha.1 (by simp)
    rw [hps (st := .finalize) hst]
    show responseFinalize e _ = _
    unfold responseFinalize
    have hl : takeTillLf (r.line ++ [13, 10] ++ rest) = .ok rest (r.line ++ [13, 10]) := by
      have := takeTillLf_line (x := r.line ++ [13]) (rest := rest) (by
        simp only [List.mem_append, not_or]; exact ⟨fun h => (response_noEol hrw.head _ h).2 rfl, by decide⟩)
      simpa using this
    have hcons : r.line ++ [13, 10] ++ rest = 72 :: ([84, 84, 80] ++ cs ++ [13, 10] ++ rest) := by rw [hc]; rfl
    rw [rp_state_bind, rp_input, win_isGap, if_neg (by simp), rp_resp, if_neg ha.2, win_asSlice, hcons]
    dsimp only
    rw [if_neg (by decide), ← hcons, hl]
    dsimp only
    rw [rp_consume_bind, win_consume]
    unfold responseFinalizeLine
    rw [rp_state_bind, rp_resp]
    dsimp only
    rw [hb]
    rw [show decide (([] : Bytes) ≠ []) = false from by simp]
    refine (M.when_false_bind _ _ _).trans ?_
    rw [rp_setResp_bind, List.nil_append, if_neg (by simp), notAsBody hrw.head, if_neg (by simp), rp_setResp_bind,
      rp_unconsume_bind, win_unconsume]
    have e1 : ({ h with bytesConsumed := done.length } : Half) =
        { h with bytesConsumed := done.length, buf := [] } := by rw [← hb]
    rw [e1] at h1
    exact h1

end Model

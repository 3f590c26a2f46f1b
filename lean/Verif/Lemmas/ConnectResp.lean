/-
CONNECT requests: the response side.
-/
import Verif.Lemmas.Connect
import Verif.Lemmas.Interim

namespace Model

open M Spec Props

/-- The head of a response is read. -/
theorem connect_head {e : Env} (hcb : CallbacksOK e) {r : Response} (hr : r.HeadWellFormed) {s : Conn} (hb : BetweenResponses s) {t0 : Tx}
    (hg : s.txs.get s.txs.response = some t0) (hx : t0.index = s.txs.response) (hp : t0.requestProgress ≠ .notStarted)
    (h9 : t0.isProtocol09 = false) (hu : Unanswered t0) {done rest : Bytes} {q : Nat}
    (hi : s.input = win done (r.line ++ [13, 10] ++ (renderBlock r.headers ++ rest)) q)
    (hlim : r.line.length + 2 ≤ e.cfg.fieldLimit) (hf : AnswerFollows r.headers rest) :
    ∃ h t, Rounds (responseStep e) 3 s (rp s h t [.tx .responseStart s.txs.response, .tx .responseLine s.txs.response]
        (win (done ++ (r.line ++ [13, 10]) ++ renderBlock r.headers) rest (done ++ (r.line ++ [13, 10])).length)) ∧
      h.state = .bodyDetermine ∧ h.receiver = some .responseHeaderData ∧ BetweenAnswers s h ∧ LineRead t0 r t ∧
      t.responseEntityLen = 0 ∧ t.responseContentLength = none ∧
      t.responseHeaders = storedTable HFlag.FIELD_REPEATED (fieldsOf r.headers) ∧
      t.responseHeaderRepetitions = min 64 (extras (fieldsOf r.headers) (fieldsOf r.headers).length) := by
  have hal : s.resp.status ≠ .tunnel ∧ s.resp.status ≠ .closed := by
    rcases hb.status with h | h | h <;> rw [h] <;> decide
  obtain ⟨u1, u2, u3, u4, u5⟩ := hu.fields
  have r1 := answer_idle hcb hb hg hp h9 hi (by simp)
  rw [hi] at r1
  have r2 := answer_line hcb hr s
    { s.resp with contentLength := none, bodyDataLeft := none, state := .line, statePrevious := .line }
    { t0 with responseProgress := .line } [.tx .responseStart s.txs.response] done
    (renderBlock r.headers ++ rest) q rfl rfl hb.buf hb.header hal hlim hx
  have r3 := (fun {h t evs done q}
    (_ : responseStep e _ = (.ok none, rp s h t evs (win done (renderBlock r.headers ++ rest) q))) =>
    answer_headers (e := e) hr s h t evs done rest q) r2 rfl hb.header hal rfl u1 u2 hf
  exact ⟨_, _, .next r1 (.next r2 (.next r3 (.zero _))), rfl, rfl, ⟨rfl, rfl, rfl⟩,
    ⟨rfl, rfl, rfl, rfl, rfl, rfl, rfl, by show Progress.headers ≠ .complete; decide⟩, u4, u3, rfl, rfl⟩

/-- The response is recorded as complete. -/
theorem completeResponse_rp {e : Env} (hcb : CallbacksOK e) (s : Conn) (h : Half) (t : Tx) (evs : List Event) (inp : PData)
    (hr : h.receiver = none) (hp : t.responseProgress ≠ .complete)
    (henc : t.responseContentEncodingProcessing = .none) (hlen : t.responseEntityLen < 2 ^ 64) :
    ∃ ml, ∀ {β : Type} (f : Unit → M β),
      (M.when (t.responseProgress != .complete) (completeResponse e t) >>= f) (rp s h t evs inp) =
      f () (rp s h { t with responseMessageLen := ml, responseProgress := .complete } (evs ++ [.tx .responseComplete s.txs.response]) inp) := by
  have h1 : ∃ ml, (M.when (t.responseTransferCoding != .noBody) (do
        let _ ← attempt (responseBodyData e none)
        pure ())) (rp s h { t with responseProgress := .complete } evs inp) =
      (.ok (), rp s h { t with responseMessageLen := ml, responseProgress := .complete } evs inp) := by
    cases (t.responseTransferCoding != .noBody) with
    | false => exact ⟨t.responseMessageLen, rfl⟩
    | true =>
      refine ⟨wrapAdd t.responseMessageLen 0, ?_⟩
      have h2 := rp_bodyData hcb s h { t with responseProgress := .complete } evs inp none henc (by simpa using hlen)
      show (attempt (responseBodyData e none) >>= fun _ => pure ()) _ = _
      rw [M.bind_ok (M.attempt_ok h2)]
      dsimp only [Option.getD]
      rw [if_pos rfl, List.append_nil]
      rfl
  obtain ⟨ml, h1⟩ := h1
  refine ⟨ml, fun f => ?_⟩
  generalize ht' : ({ t with responseMessageLen := ml, responseProgress := .complete } : Tx) = t' at h1
  have h2 : completeResponse e t (rp s h t evs inp) = (.ok (),
      rp s h t' (evs ++ [.tx .responseComplete s.txs.response]) inp) := by
    unfold completeResponse
    rw [rp_put_bind, M.bind_ok h1, rp_state_bind, rp_response, rp_hook_bind _ _ _ _ _ hcb,
      rp_finalizeClear_none _ _ _ _ _ hr]
  rw [show (t.responseProgress != .complete) = true from by simpa using hp]
  exact M.bind_ok (show M.when true (completeResponse e t) _ = _ from h2)

/-- The response is complete, but the request is not. -/
theorem complete_waiting {e : Env} (hcb : CallbacksOK e) (s : Conn) (h : Half) (t : Tx) (evs : List Event) (inp : PData)
    (hr : h.receiver = none) (hst : h.status ≠ .dataOther) (hblk : s.responseDataOtherAtTxEnd = false)
    (hq : t.requestProgress ≠ .complete) (hp : t.responseProgress ≠ .complete)
    (henc : t.responseContentEncodingProcessing = .none) (hlen : t.responseEntityLen < 2 ^ 64) :
    ∃ ml, stateResponseComplete e (rp s h t evs inp) = (.ok (),
      answered false s { h with state := .idle } { t with responseMessageLen := ml, responseProgress := .complete }
        (evs ++ [.tx .responseComplete s.txs.response]) inp) := by
  obtain ⟨ml, h1⟩ := completeResponse_rp hcb s h t evs inp hr hp henc hlen
  refine ⟨ml, ?_⟩
  unfold stateResponseComplete
  rw [rp_tx_bind, h1]
  generalize ht' : ({ t with responseMessageLen := ml, responseProgress := .complete } : Tx) = t'
  have hc' : t'.isComplete = false := by rw [← ht']; simp [Tx.isComplete, hq]
  have h3 : requestParserCheckWaiting (rp s h t' (evs ++ [.tx .responseComplete s.txs.response]) inp) =
      (.ok (), rp s h t' (evs ++ [.tx .responseComplete s.txs.response]) inp) := by
    unfold requestParserCheckWaiting
    rw [rp_state_bind, rp_resp, if_neg (fun x => hst x.1), if_neg (by
      show ¬ s.responseDataOtherAtTxEnd = true
      rw [hblk]; simp)]
    rfl
  rw [M.bind_ok h3, rp_state_bind, rp_response]
  have h4 : finalizeTx e s.txs.response (rp s h t' (evs ++ [.tx .responseComplete s.txs.response]) inp) =
      (.ok (), rp s h t' (evs ++ [.tx .responseComplete s.txs.response]) inp) := by
    unfold finalizeTx
    rw [rp_state_bind, rp_get]
    dsimp only
    rw [hc']
    rfl
  rw [M.bind_ok h4]
  have h5 : ∀ evs', ((rp s h t' evs' inp).txs).responseNext e.cfg.txAutoDestroy = answeredTxs false s.txs t' := by
    intro evs'
    unfold Txs.responseNext Txs.checkFree answeredTxs
    rw [rp_response, rp_get]
    dsimp only
    rw [hc']
    cases e.cfg.txAutoDestroy <;> rfl
  unfold responseNext
  rw [M.bind_modify, h5]
  rfl

/-- The response is complete, and the request side is to go on first. -/
theorem complete_blocked {e : Env} (hcb : CallbacksOK e) (s : Conn) (h : Half) (t : Tx) (evs : List Event) (inp : PData)
    (hr : h.receiver = none) (hst : h.status ≠ .dataOther) (hblk : s.responseDataOtherAtTxEnd = true)
    (hp : t.responseProgress ≠ .complete)
    (henc : t.responseContentEncodingProcessing = .none) (hlen : t.responseEntityLen < 2 ^ 64) :
    ∃ ml, stateResponseComplete e (rp s h t evs inp) = (.error (.status .dataOther),
      rp { s with responseDataOtherAtTxEnd := false } h { t with responseMessageLen := ml, responseProgress := .complete }
        (evs ++ [.tx .responseComplete s.txs.response]) inp) := by
  obtain ⟨ml, h1⟩ := completeResponse_rp hcb s h t evs inp hr hp henc hlen
  refine ⟨ml, ?_⟩
  unfold stateResponseComplete
  rw [rp_tx_bind, h1]
  generalize ht' : ({ t with responseMessageLen := ml, responseProgress := .complete } : Tx) = t'
  have h3 : requestParserCheckWaiting (rp s h t' (evs ++ [.tx .responseComplete s.txs.response]) inp) =
      (.error (.status .dataOther), rp { s with responseDataOtherAtTxEnd := false } h t' (evs ++ [.tx .responseComplete s.txs.response]) inp) := by
    unfold requestParserCheckWaiting
    rw [rp_state_bind, rp_resp, if_neg (fun x => hst x.1), if_pos (show (rp s h t' (evs ++ [.tx .responseComplete s.txs.response]) inp).responseDataOtherAtTxEnd = true from hblk)]
    rfl
  rw [M.bind_error h3]

/-- The end of the response at the end of the data. -/
theorem finalize_end {e : Env} {s : Conn} {h : Half} {t : Tx} {evs : List Event} {done : Bytes} {q : Nat} {x : Except Err Unit} {s' : Conn}
    (hst : h.state = .finalize) (ha : Alive h)
    (h1 : stateResponseComplete e (rp s h t evs (win done [] q)) = (x, s')) :
    handleResponseState e (rp s h t evs (win done [] q)) = (x, s') := by
  rw [hps (st := .finalize) hst]
  show responseFinalize e _ = _
  unfold responseFinalize
  rw [rp_state_bind, rp_input, win_isGap, if_neg (by simp), rp_resp, if_neg ha.2, win_asSlice]
  dsimp only
  rw [h1]

theorem accepted_absent {a : Response} (ha : a.WellFormed true) : a.body = .absent := by
  have := ha.framed
  unfold Response.Framed at this
  split at this
  · assumption
  · cases this.1
  · cases this.1

/-- The tunnel is granted. -/
theorem accept_determine {e : Env} (hcb : CallbacksOK e) {r : Response} (s : Conn)
    (h : Half) (t : Tx) (evs : List Event) (done blk rest : Bytes) (hr : r.WellFormed true)
    (hst : h.state = .bodyDetermine) (ha : Alive h) (hrc : h.receiver = some .responseHeaderData)
    (ht : t.responseHeaders = storedTable HFlag.FIELD_REPEATED (fieldsOf r.headers))
    (hm : t.requestMethodNumber = .connect) (hn : t.responseStatusNumber = .valid r.code) (hc : r.code ≤ 299) :
    responseStep e (rp s h t evs (win (done ++ blk) rest done.length)) = (.ok none,
      rp s { h with state := .finalize, statePrevious := .finalize, receiver := none }
        { t with responseContentEncoding := .none, responseContentEncodingProcessing := .none }
        (evs ++ [.data .responseHeaderData s.txs.response (.ofBytes blk), .tx .responseHeaders s.txs.response])
        (win (done ++ blk) rest (done ++ blk).length)) := by
  refine rp_round (s0 := rp s h t evs (win (done ++ blk) rest done.length)) s
    { h with state := .finalize, receiver := none } _ _ _ rfl ?_ ha.1 (by simp)
  rw [hps (st := .bodyDetermine) hst]
  show responseBodyDetermine e _ = _
  unfold responseBodyDetermine
  have h1 : responseConnect e (rp s h t evs (win (done ++ blk) rest done.length)) =
      (.ok true, rp s { h with state := .finalize } t evs (win (done ++ blk) rest done.length)) := by
    unfold responseConnect
    rw [rp_tx_bind, if_pos hm, if_pos (by
      rw [hn]
      have := hr.code.1
      simp [ResponseNumber.inRange]
      omega), rp_setResp_bind]
    rfl
  rw [M.bind_ok h1]
  exact headersDone_rp hcb hr _ _ _ _ _ _ _ (by exact hrc) (by exact ht)

/-- The transactions after an answer to a request that is not complete. -/
theorem get_answered (txs : Txs) (t : Tx) (j : Nat) :
    (answeredTxs false txs t).get j = if j = txs.response then some t else txs.get j := Txs.get_set _ _ _ _

/-- What is left behind by the answer to a CONNECT request, when the parser has gone on to the next response. -/
theorem negotiates_answered {s s' : Conn} {t t' : Tx} {auto : Bool} {h : Half} {evs : List Event} {inp : PData} {f : Half → Half}
    (hn : Negotiates s t) (hk : s.txs.response = s.txs.request) (hf : (f s.req).state = s.req.state ∧ (f s.req).buf = s.req.buf ∧
      (f s.req).header = s.req.header ∧ (f s.req).receiver = s.req.receiver ∧ ((f s.req).status = .data ∨ (f s.req).status = .dataOther))
    {s1 : Conn} (h1 : s1.txs = s.txs) (h2 : s1.req = f s.req)
    (ha : AnswersDone auto (answered false s1 h t' evs inp) s' []) :
    Negotiates s' t' ∧ s'.txs.response = s.txs.response + 1 ∧ s'.txs.request = s.txs.request ∧ s'.req = f s.req ∧
      ∀ j, j < s.txs.request → s'.txs.get j = s.txs.get j := by
  have hresp : s'.txs.response = s.txs.response + 1 := by
    have := ha.response
    simp only [answered, answeredTxs, h1] at this
    exact this
  have hreq : s'.txs.request = s.txs.request := by
    have := ha.request
    simp only [answered, answeredTxs, h1] at this
    exact this
  have hsr : s'.req = f s.req := by
    have := ha.req
    simp only [answered, h2] at this
    exact this
  have hget : ∀ j, (answered false s1 h t' evs inp).txs.get j = if j = s.txs.response then some t' else s.txs.get j := by
    intro j
    show (answeredTxs false s1.txs t').get j = _
    rw [get_answered, h1]
  have hr1 : (answered false s1 h t' evs inp).txs.response = s.txs.response + 1 := by
    show s1.txs.response + 1 = _
    rw [h1]
  have hoth : ∀ j, j < s.txs.response + 1 ∨ s.txs.response + 1 < j → s'.txs.get j = if j = s.txs.response then some t' else s.txs.get j := by
    intro j hj
    rw [← hget]
    refine ha.others j ?_
    rw [hr1]
    simp
    omega
  refine ⟨⟨by rw [hsr, hf.1]; exact hn.state, by rw [hsr, hf.2.1]; exact hn.buf, by rw [hsr, hf.2.2.1]; exact hn.header,
    by rw [hsr, hf.2.2.2.1]; exact hn.receiver, by rw [hsr]; exact hf.2.2.2.2, ?_, ?_, ?_⟩, hresp, hreq, hsr, ?_⟩
  · rw [hreq, hoth _ (by omega), if_pos hk.symm]
  · rw [hreq, ← hk]
    have hnx := hn.next
    rw [← hk] at hnx
    rcases hnx with h0 | h0
    · have := ha.next
      rw [hr1] at this
      exact this (by rw [hget, if_neg (by simp)]; exact h0)
    · right
      have := ha.others (s.txs.response + 1) (by
        rw [hr1]
        refine .inr (.inr ⟨rfl, ?_⟩)
        rw [hget, if_neg (by simp), h0]
        rfl)
      rw [this, hget, if_neg (by simp), h0]
  · intro j hj
    rw [hreq] at hj
    rw [hoth j (by omega), if_neg (by omega)]
    exact hn.beyond j hj
  · intro j hj
    rw [hoth j (by omega), if_neg (by omega)]

/-- The tunnel is granted. -/
theorem call_accepted {e : Env} (hcb : CallbacksOK e) {s : Conn} {t : Tx} {r : Request}
    (hn : Negotiates s t) (hr : RecordsConnect t s.txs.request r) (hu : Unanswered t) (hb : BetweenResponses s)
    (hk : s.txs.response = s.txs.request) {a : Response} (ha : a.WellFormed true) (hc : a.code ≤ 299)
    (hlim : a.line.length + 2 ≤ e.cfg.fieldLimit) :
    ∃ s' t', responseData e (.ofBytes a.render) s = (.ok (some .data), s') ∧
      s'.trace = s.trace ++ [.tx .responseStart s.txs.request, .tx .responseLine s.txs.request,
        .data .responseHeaderData s.txs.request (.ofBytes (renderBlock a.headers)), .tx .responseHeaders s.txs.request,
        .tx .responseComplete s.txs.request] ∧
      Negotiates s' t' ∧ RecordsVerdict t' a ∧ requestSide t' = requestSide t ∧ BetweenResponses s' ∧
      s'.txs.response = s.txs.response + 1 ∧ s'.txs.request = s.txs.request ∧ s'.req = s.req ∧
      ∀ j, j < s.txs.request → s'.txs.get j = s.txs.get j := by
  have hst : s.resp.status ≠ .stop ∧ s.resp.status ≠ .error ∧ s.resp.status ≠ .tunnel ∧ s.resp.status ≠ .closed ∧
      s.resp.status ≠ .dataOther := by
    rcases hb.status with h | h | h <;> rw [h] <;> decide
  have hren : a.render = a.line ++ [13, 10] ++ (renderBlock a.headers ++ []) := by
    simp [Response.render, accepted_absent ha, Body.render]
  have hne : a.render ≠ [] := by rw [hren]; simp
  have hb1 : BetweenResponses (responseFed a.render s) := ⟨hb.state, hb.buf, hb.header, hb.receiver, hb.status, hb.notBlocked⟩
  have hg1 : (responseFed a.render s).txs.get (responseFed a.render s).txs.response = some t := by
    show s.txs.get s.txs.response = _
    rw [hk]
    exact hn.current
  obtain ⟨h1, t1, r1, hst1, hrc1, hc1, hl1, hel1, hcl1, htab1, -⟩ := connect_head hcb ha.head hb1 hg1 (hr.index.trans hk.symm)
    (by rw [hr.progress]; decide) hr.notProtocol09 hu (done := []) (rest := []) (q := 0) (congrArg PData.ofBytes hren |>.trans rfl) hlim
    ⟨fun _ => rfl, fun c hc => by cases hc⟩
  have hal1 : Alive h1 := by unfold Alive; rw [hc1.status]; exact ⟨hst.2.2.1, hst.2.2.2.1⟩
  have r2 := accept_determine hcb (responseFed a.render s) h1 t1
    [.tx .responseStart (responseFed a.render s).txs.response, .tx .responseLine (responseFed a.render s).txs.response]
    ([] ++ (a.line ++ [13, 10])) (renderBlock a.headers) [] ha hst1 hal1 hrc1 htab1
    (hl1.method.trans hr.methodNumber) hl1.statusNumber hc
  obtain ⟨ml, h3⟩ := complete_waiting hcb (responseFed a.render s)
    { h1 with state := .finalize, statePrevious := .finalize, receiver := none }
    { t1 with responseContentEncoding := .none, responseContentEncodingProcessing := .none }
    ([.tx .responseStart (responseFed a.render s).txs.response, .tx .responseLine (responseFed a.render s).txs.response] ++
      [.data .responseHeaderData (responseFed a.render s).txs.response (.ofBytes (renderBlock a.headers)),
       .tx .responseHeaders (responseFed a.render s).txs.response])
    (win ([] ++ (a.line ++ [13, 10]) ++ renderBlock a.headers) [] ([] ++ (a.line ++ [13, 10]) ++ renderBlock a.headers).length)
    rfl (by show h1.status ≠ _; rw [hc1.status]; exact hst.2.2.2.2) hb.notBlocked
    (by show t1.requestProgress ≠ _; rw [hl1.requestProgress, hr.progress]; decide) hl1.progress rfl (by show t1.responseEntityLen < _; omega)
  have r3 := answered_round (e := e) _ _ _ _ _ rfl (finalize_end rfl (by exact hal1) h3) hal1.1 (by simp)
  have key := (fun {h t evs done q}
      (_ : responseStep e _ = (.ok none, answered false (responseFed a.render s) h t evs (win done [] q))) =>
      answers_idle (e := e) (s := answered false (responseFed a.render s) h t evs (win done [] q)) (done := done) (q := q)) r3
  obtain ⟨s4, h4, ha4, -⟩ := key
    (by exact ⟨rfl, hc1.buf, hc1.header, rfl, by show h1.status = _ ∨ h1.status = _ ∨ h1.status = _; rw [hc1.status]; exact hb.status,
      hb.notBlocked⟩) (by exact rfl)
  have hcall := call_rounds hne ⟨hst.1, hst.2.1, hst.2.2.1, hst.2.2.2.1⟩ hb.buf hb.header (r1.append (.next r2 (.next r3 (.zero _)))) h4
  obtain ⟨n1, n2, n3, n4, n5⟩ := negotiates_answered (f := id) (s1 := responseFed a.render s) hn hk ⟨rfl, rfl, rfl, rfl, hn.status⟩ rfl rfl ha4
  refine ⟨s4, _, hcall, ?_, n1, ?_, hl1.same, ha4.between, n2, n3, n4, n5⟩
  · rw [ha4.trace]
    show s.trace ++ _ ++ [] = _
    rw [List.append_nil, ← hk]
    rfl
  · obtain ⟨p, hp⟩ := ha.protocol
    refine ⟨hl1.line, hl1.protocol, ?_, hl1.status, hl1.statusNumber, hl1.message, htab1, hel1, rfl⟩
    show (a.protocol, t1.responseProtocolNumber) ∈ _
    rw [hl1.protocolNumber, (protocol_facts _ hp).1]
    exact hp

/-- The request side is unblocked. -/
def unblocked (s : Conn) (again : Bool) : Conn :=
  { s with req := { s.req with status := .data }, responseDataOtherAtTxEnd := again || s.responseDataOtherAtTxEnd }

theorem passes_refused {e : Env} (s : Conn) {t : Tx} {n : Nat} (hm : t.requestMethodNumber = .connect)
    (hn : t.responseStatusNumber = .valid n) (h3 : 300 ≤ n) (hst : s.req.status ≠ .error) :
    Passes e s (unblocked s (decide (n ≠ 407))) t := by
  intro h evs inp
  unfold responseConnect
  rw [rp_tx_bind, if_pos hm, hn, if_neg (by simp [ResponseNumber.inRange]; omega)]
  have h1 : ∀ {β : Type} (f : Unit → M β), (unblockRequest >>= f) (rp s h t evs inp) = f () (rp (unblocked s false) h t evs inp) := by
    intro β f
    unfold unblockRequest
    show f () (rp { s with req := { s.req with status := if s.req.status = .error then .error else .data } } h t evs inp) = _
    rw [if_neg hst]
    rfl
  by_cases h4 : n = 407
  · rw [if_pos (by simp [ResponseNumber.eqNum, h4]), h1, show decide (n ≠ 407) = false from by simp [h4]]
    rfl
  · rw [if_neg (by simp [ResponseNumber.eqNum, h4]), h1, show decide (n ≠ 407) = true from by simp [h4]]
    rfl

/-- The rounds up to the end of a response that refuses the tunnel. -/
theorem rounds_refused {e : Env} (hcb : CallbacksOK e) {s : Conn} {t : Tx} {r : Request}
    (hn : Negotiates s t) (hr : RecordsConnect t s.txs.request r) (hu : Unanswered t) (hb : BetweenResponses s)
    (hk : s.txs.response = s.txs.request) {a : Response} (ha : a.WellFormed false) (hc : 300 ≤ a.code)
    (hx : t.requestHeaders.getNocase (b! "expect") = none ∨ ¬ (400 ≤ a.code ∧ a.code ≤ 499))
    (hlim : a.line.length + 2 ≤ e.cfg.fieldLimit) :
    ∃ k h' t' q', Rounds (responseStep e) k (responseFed a.render s)
        (rp (unblocked (responseFed a.render s) (decide (a.code ≠ 407))) h' t'
          ([.tx .responseStart s.txs.response, .tx .responseLine s.txs.response,
            .data .responseHeaderData s.txs.response (.ofBytes (renderBlock a.headers)), .tx .responseHeaders s.txs.response] ++
            a.body.answerCallbacks s.txs.response) (win a.render [] q')) ∧
      h'.state = .finalize ∧ h'.receiver = none ∧ Alive h' ∧ h'.buf = [] ∧ h'.header = none ∧ h'.status = s.resp.status ∧
      LineRead t a t' ∧ t'.responseContentEncodingProcessing = .none ∧ t'.responseTransferCoding = a.body.coding ∧
      t'.responseContentLength = a.body.size ∧ t'.responseEntityLen = a.body.content.length ∧
      t'.responseHeaders = storedTable HFlag.FIELD_REPEATED (fieldsOf (a.headers ++ a.body.trailer)) := by
  have hst : s.resp.status ≠ .tunnel ∧ s.resp.status ≠ .closed := by
    rcases hb.status with h | h | h <;> rw [h] <;> decide
  have hren : a.render = a.line ++ [13, 10] ++ (renderBlock a.headers ++ (a.body.render ++ [])) := by
    simp [Response.render]
  have hb1 : BetweenResponses (responseFed a.render s) := ⟨hb.state, hb.buf, hb.header, hb.receiver, hb.status, hb.notBlocked⟩
  have hg1 : (responseFed a.render s).txs.get (responseFed a.render s).txs.response = some t := by
    show s.txs.get s.txs.response = _
    rw [hk]
    exact hn.current
  have hwf : a.WellFormed (decide (t.requestMethodNumber = .head)) := by
    rw [hr.methodNumber]
    exact ha
  obtain ⟨h1, t1, r1, hst1, hrc1, hc1, hl1, hel1, hcl1, htab1, hrep1⟩ := connect_head hcb ha.head hb1 hg1 (hr.index.trans hk.symm)
    (by rw [hr.progress]; decide) hr.notProtocol09 hu (done := []) (rest := a.body.render ++ []) (q := 0)
    (congrArg PData.ofBytes hren |>.trans rfl) hlim (answerFollows_headers ha (.inl rfl) (.inl rfl))
  have hal1 : Alive h1 := by unfold Alive; rw [hc1.status]; exact hst
  obtain ⟨k2, h2, t2, q2, r2, hst2, hrc2, hal2, hc2, hl2, henc2, hcod2, hsz2, hel2, htab2⟩ := answers_body_via hcb
    (responseFed a.render s) (unblocked (responseFed a.render s) (decide (a.code ≠ 407))) h1 t t1 hwf
    (settles (passes_refused _ (hl1.method.trans hr.methodNumber) hl1.statusNumber hc (by
      show s.req.status ≠ _
      rcases hn.status with h | h <;> rw [h] <;> decide)) (heeds_none _ hl1.statusNumber (by rw [hl1.requestHeaders]; exact hx))
      hl1.statusNumber (by omega))
    [.tx .responseStart (responseFed a.render s).txs.response, .tx .responseLine (responseFed a.render s).txs.response]
    ([] ++ (a.line ++ [13, 10])) [] hst1 hrc1 hal1 ⟨hc1.buf, hc1.header, hc1.status⟩ hl1 hel1 hcl1 htab1 hrep1 (.inl rfl) (.inl rfl)
  have := r1.append r2
  have e1 : ([] : Bytes) ++ (a.line ++ [13, 10]) ++ renderBlock a.headers ++ a.body.render = a.render := by
    simp [Response.render]
  rw [e1] at this
  exact ⟨_, h2, t2, q2, this, hst2, hrc2, hal2, hc2.buf, hc2.header, hc2.status, hl2, henc2, hcod2, hsz2, hel2, htab2⟩

theorem records_refused {t t' : Tx} {a : Response} {b : Bool} {ml : Nat} (ha : a.WellFormed b) (hl : LineRead t a t') (h1 : t'.responseTransferCoding = a.body.coding)
    (h2 : t'.responseContentLength = a.body.size) (h3 : t'.responseEntityLen = a.body.content.length)
    (h4 : t'.responseHeaders = storedTable HFlag.FIELD_REPEATED (fieldsOf (a.headers ++ a.body.trailer))) :
    RecordsResponse { t' with responseMessageLen := ml, responseProgress := .complete } a := by
  obtain ⟨p, hp⟩ := ha.protocol
  refine ⟨hl.line, hl.protocol, ?_, hl.status, hl.statusNumber, hl.message, h4, h1, h2, h3, rfl⟩
  show (a.protocol, t'.responseProtocolNumber) ∈ _
  rw [hl.protocolNumber, (protocol_facts _ hp).1]
  exact hp

theorem callbacks_dropLast (a : Response) (k : Nat) : (a.callbacks k).dropLast =
    [.tx .responseStart k, .tx .responseLine k, .data .responseHeaderData k (.ofBytes (renderBlock a.headers)), .tx .responseHeaders k] ++
      a.body.answerCallbacks k ++ [.tx .responseComplete k] := by
  unfold Response.callbacks
  rw [show [Event.tx .responseComplete k, .tx .transactionComplete k] = [.tx .responseComplete k] ++ [.tx .transactionComplete k] from rfl,
    ← List.append_assoc, List.dropLast_concat]

/-- The proxy asks for credentials. -/
theorem call_credentials {e : Env} (hcb : CallbacksOK e) {s : Conn} {t : Tx} {r : Request}
    (hn : Negotiates s t) (hr : RecordsConnect t s.txs.request r) (hu : Unanswered t) (hb : BetweenResponses s)
    (hk : s.txs.response = s.txs.request) {a : Response} (ha : a.WellFormed false) (hc : a.code = 407)
    (hx : t.requestHeaders.getNocase (b! "expect") = none) (hlim : a.line.length + 2 ≤ e.cfg.fieldLimit) :
    ∃ s' t', responseData e (.ofBytes a.render) s = (.ok (some .data), s') ∧
      s'.trace = s.trace ++ (a.callbacks s.txs.request).dropLast ∧
      Negotiates s' t' ∧ RecordsResponse t' a ∧ requestSide t' = requestSide t ∧ BetweenResponses s' ∧
      s'.txs.response = s.txs.response + 1 ∧ s'.txs.request = s.txs.request ∧ s'.req = { s.req with status := .data } ∧
      ∀ j, j < s.txs.request → s'.txs.get j = s.txs.get j := by
  have hst : s.resp.status ≠ .stop ∧ s.resp.status ≠ .error ∧ s.resp.status ≠ .tunnel ∧ s.resp.status ≠ .closed ∧
      s.resp.status ≠ .dataOther := by
    rcases hb.status with h | h | h <;> rw [h] <;> decide
  have hne : a.render ≠ [] := by simp [Response.render]
  obtain ⟨k, h1, t1, q1, r1, hst1, hrc1, hal1, hbuf1, hhdr1, hs1, hl1, henc1, hcod1, hsz1, hel1, htab1⟩ := rounds_refused hcb hn hr hu hb hk ha
    (by omega) (.inl hx) hlim
  have hblk : (unblocked (responseFed a.render s) (decide (a.code ≠ 407))).responseDataOtherAtTxEnd = false := by
    show (decide (a.code ≠ 407) || s.responseDataOtherAtTxEnd) = false
    rw [hb.notBlocked]
    simpa using hc
  obtain ⟨ml, h3⟩ := complete_waiting hcb (unblocked (responseFed a.render s) (decide (a.code ≠ 407))) h1 t1
    ([.tx .responseStart s.txs.response, .tx .responseLine s.txs.response,
            .data .responseHeaderData s.txs.response (.ofBytes (renderBlock a.headers)), .tx .responseHeaders s.txs.response] ++
            a.body.answerCallbacks s.txs.response) (win a.render [] q1) hrc1 (by rw [hs1]; exact hst.2.2.2.2) hblk
    (by rw [hl1.requestProgress, hr.progress]; decide) hl1.progress henc1 (by rw [hel1]; exact ha.length)
  have r3 := answered_round (e := e) _ _ _ _ _ rfl (finalize_end hst1 hal1 h3) hal1.1 (by simp)
  obtain ⟨s4, h4, ha4, -⟩ := answers_idle (e := e) (s := answered false (unblocked (responseFed a.render s) (decide (a.code ≠ 407)))
      { h1 with state := .idle, statePrevious := .idle } { t1 with responseMessageLen := ml, responseProgress := .complete }
      ([.tx .responseStart s.txs.response, .tx .responseLine s.txs.response,
            .data .responseHeaderData s.txs.response (.ofBytes (renderBlock a.headers)), .tx .responseHeaders s.txs.response] ++
            a.body.answerCallbacks s.txs.response ++ [.tx .responseComplete s.txs.response]) (win a.render [] q1))
    ⟨rfl, hbuf1, hhdr1, hrc1, by show h1.status = _ ∨ h1.status = _ ∨ h1.status = _; rw [hs1]; exact hb.status, hblk⟩ rfl
  have hcall := call_rounds hne ⟨hst.1, hst.2.1, hst.2.2.1, hst.2.2.2.1⟩ hb.buf hb.header (r1.append (.next r3 (.zero _))) h4
  obtain ⟨n1, n2, n3, n4, n5⟩ := negotiates_answered (f := fun h => { h with status := .data })
    (s1 := unblocked (responseFed a.render s) (decide (a.code ≠ 407))) hn hk ⟨rfl, rfl, rfl, rfl, .inl rfl⟩ rfl rfl ha4
  refine ⟨s4, _, hcall, ?_, n1, records_refused ha hl1 hcod1 hsz1 hel1 htab1, hl1.same, ha4.between, n2, n3, n4, n5⟩
  rw [ha4.trace]
  show s.trace ++ _ ++ [] = _
  rw [List.append_nil, ← hk, callbacks_dropLast]

/-- The tunnel is refused. -/
theorem call_refused {e : Env} (hcb : CallbacksOK e) {s : Conn} {t : Tx} {r : Request}
    (hn : Negotiates s t) (hr : RecordsConnect t s.txs.request r) (hu : Unanswered t) (hb : BetweenResponses s)
    (hk : s.txs.response = s.txs.request) {a : Response} (ha : a.WellFormed false) (hc : 300 ≤ a.code ∧ a.code ≠ 407)
    (hx : t.requestHeaders.getNocase (b! "expect") = none ∨ ¬ (400 ≤ a.code ∧ a.code ≤ 499))
    (hlim : a.line.length + 2 ≤ e.cfg.fieldLimit) :
    ∃ s' t', responseData e (.ofBytes a.render) s = (.ok (some .data), s') ∧
      s'.trace = s.trace ++ (a.callbacks s.txs.request).dropLast ∧
      Negotiates s' t' ∧ RecordsResponse t' a ∧ requestSide t' = requestSide t ∧ Refused s' ∧
      s'.txs.response = s.txs.response ∧ s'.txs.request = s.txs.request ∧ s'.req = { s.req with status := .data } ∧
      ∀ j, j ≠ s.txs.request → s'.txs.get j = s.txs.get j := by
  have hst : s.resp.status ≠ .stop ∧ s.resp.status ≠ .error ∧ s.resp.status ≠ .tunnel ∧ s.resp.status ≠ .closed ∧
      s.resp.status ≠ .dataOther := by
    rcases hb.status with h | h | h <;> rw [h] <;> decide
  have hne : a.render ≠ [] := by simp [Response.render]
  obtain ⟨k, h1, t1, q1, r1, hst1, hrc1, hal1, hbuf1, hhdr1, hs1, hl1, henc1, hcod1, hsz1, hel1, htab1⟩ := rounds_refused hcb hn hr hu hb hk ha
    hc.1 hx hlim
  have hblk : (unblocked (responseFed a.render s) (decide (a.code ≠ 407))).responseDataOtherAtTxEnd = true := by
    show (decide (a.code ≠ 407) || s.responseDataOtherAtTxEnd) = true
    simp [hc.2]
  obtain ⟨ml, h3⟩ := complete_blocked hcb (unblocked (responseFed a.render s) (decide (a.code ≠ 407))) h1 t1
    ([.tx .responseStart s.txs.response, .tx .responseLine s.txs.response,
            .data .responseHeaderData s.txs.response (.ofBytes (renderBlock a.headers)), .tx .responseHeaders s.txs.response] ++
            a.body.answerCallbacks s.txs.response) (win a.render [] q1) hrc1 (by rw [hs1]; exact hst.2.2.2.2) hblk
    hl1.progress henc1 (by rw [hel1]; exact ha.length)
  have h4 : responseStep e (rp (unblocked (responseFed a.render s) (decide (a.code ≠ 407))) h1 t1
    ([.tx .responseStart s.txs.response, .tx .responseLine s.txs.response,
            .data .responseHeaderData s.txs.response (.ofBytes (renderBlock a.headers)), .tx .responseHeaders s.txs.response] ++
            a.body.answerCallbacks s.txs.response) (win a.render [] q1)) = (.ok (some .data),
      rp { unblocked (responseFed a.render s) (decide (a.code ≠ 407)) with responseDataOtherAtTxEnd := false } { h1 with status := .data }
        { t1 with responseMessageLen := ml, responseProgress := .complete }
        ([.tx .responseStart s.txs.response, .tx .responseLine s.txs.response,
            .data .responseHeaderData s.txs.response (.ofBytes (renderBlock a.headers)), .tx .responseHeaders s.txs.response] ++
            a.body.answerCallbacks s.txs.response ++ [.tx .responseComplete s.txs.response]) (win a.render [] q1)) := by
    rw [responseStep_rc (by rfl) (M.attempt_error (finalize_end hst1 hal1 h3))]
    unfold responseStepTail
    rw [rp_state_bind]
    dsimp only
    unfold responseAfterStep
    rw [rp_state_bind, rp_input, win_isEmpty]
    rfl
  have hcall := call_rounds hne ⟨hst.1, hst.2.1, hst.2.2.1, hst.2.2.2.1⟩ hb.buf hb.header r1 h4
  have hget : ∀ j, (s.txs.set s.txs.response { t1 with responseMessageLen := ml, responseProgress := .complete }).get j =
      if j = s.txs.response then some { t1 with responseMessageLen := ml, responseProgress := .complete } else s.txs.get j :=
    fun j => Txs.get_set _ _ _ _
  refine ⟨_, { t1 with responseMessageLen := ml, responseProgress := .complete }, hcall, ?_, ⟨hn.state, hn.buf, hn.header, hn.receiver, .inl rfl, ?_, ?_, ?_⟩,
    records_refused ha hl1 hcod1 hsz1 hel1 htab1, hl1.same, ⟨hst1, hbuf1, hhdr1, hrc1, rfl, rfl⟩, rfl, rfl, rfl, ?_⟩
  · show s.trace ++ _ = _
    rw [← hk, callbacks_dropLast]
  · exact (hget _).trans (if_pos hk.symm)
  · have : (s.txs.set s.txs.response { t1 with responseMessageLen := ml, responseProgress := .complete }).get (s.txs.request + 1) =
        s.txs.get (s.txs.request + 1) := (hget _).trans (if_neg (by omega))
    exact hn.next.imp this.trans this.trans
  · intro j hj
    exact (hget j).trans ((if_neg (by have : s.txs.request + 1 < j := hj; omega)).trans (hn.beyond j hj))
  · intro j hj
    exact (hget j).trans (if_neg (by omega))

end Model

/-
Requests that wait for permission to send their body, and do not get it.
-/
import Verif.Lemmas.ConnectAfter
import Verif.Spec.Permission

namespace Model

open M Spec Props

/-! The head. -/

theorem _root_.Spec.Reads.live {s : Conn} {t : Tx} (h : Reads s t) :
    s.req.status ≠ .stop ∧ s.req.status ≠ .error ∧ s.req.status ≠ .tunnel ∧ s.req.status ≠ .closed := by
  rw [h.status]; decide

theorem _root_.Spec.Reads.buffered {s : Conn} {t : Tx} (h : Reads s t) (n : Nat) : s.req.buffered ≤ n := by
  unfold Half.buffered
  rw [h.buf, h.header]
  exact Nat.zero_le _

/-- Nothing of the body has come. -/
theorem pause_body {e : Env} (s : Conn) (h : Half) (t : Tx) (evs : List Event) (done : Bytes) (q n : Nat)
    (hst : h.state = .bodyIdentity) (hr : h.receiver = none) (hl : h.bodyDataLeft = some n) :
    ∃ inp, requestStep e (rq s h t evs (win done [] q)) = (.ok (some .data), rq s { h with status := .data } t evs inp) := by
  refine ⟨_, rq_pause s h t evs evs (win done [] q) _ (.inl rfl) (by rfl) ?_ (rq_send_none _ _ _ _ _ hr)⟩
  rw [hrs (st := .bodyIdentity) hst]
  show requestBodyIdentity e _ = _
  unfold requestBodyIdentity
  rw [rq_state_bind, rq_req, hl]
  dsimp only
  rw [rq_input, win_len, show min ([] : Bytes).length n = 0 from by simp, if_pos rfl]
  rfl

/-- The head of a request with a sized body. -/
theorem call_pauses {e : Env} (hw : Willing e) {s : Conn} (hb : BetweenRequests s) {r : Request} (hr : r.WellFormed)
    {content : Bytes} (hbody : r.body = .sized content) (hne : content ≠ []) (hlim : r.line.length + 2 ≤ e.cfg.fieldLimit)
    (hroom : s.txs.get s.txs.request = none → s.txs.map.length < e.cfg.maxTx) :
    ∃ s' t, requestData e (.ofBytes r.head) s = (.ok (some .data), s') ∧
      s'.trace = s.trace ++ connectCallbacks r s.txs.request ∧
      AtBody s' t content.length ∧ RecordsHead t s.txs.request r content.length ∧ Unanswered t ∧ s'.txs.request = s.txs.request ∧
      s'.txs.response = s.txs.response ∧ (∀ j, j ≠ s.txs.request → s'.txs.get j = s.txs.get j) ∧
      s'.resp = (if s.resp.status = .dataOther then { s.resp with status := .data } else s.resp) ∧
      s'.responseDataOtherAtTxEnd = s.responseDataOtherAtTxEnd := by
  have hst : s.req.status ≠ .stop ∧ s.req.status ≠ .error ∧ s.req.status ≠ .tunnel ∧ s.req.status ≠ .closed := by
    rcases hb.status with h | h | h | h <;> rw [h] <;> decide
  have hnil : r.head ≠ [] := by simp [Request.head]
  have hb1 : BetweenRequests (requestFed r.head s) := ⟨hb.state, hb.buf, hb.header, hb.receiver, hb.status, hb.next, hb.beyond⟩
  have hin : (requestFed r.head s).input = win [] (r.line ++ [13, 10] ++ (renderBlock r.headers ++ [])) 0 := by
    rw [List.append_nil]
    rfl
  obtain ⟨h, t, q', r4, h1, h2, h3, h4, h5, h6, h7, h8⟩ := rounds_fields hw hr hb1 hin hlim hroom (fun _ c hc => by cases hc)
  have hal : Alive h := by
    unfold Alive
    rw [h2.status]
    exact ⟨hst.2.2.1, hst.2.2.2⟩
  obtain ⟨m, hm⟩ := hr.method
  have hmn : (r.method, t.requestMethodNumber) ∈ methods := by
    rw [h3.methodNumber, (KnownMethods.facts _ hm).1]
    exact hm
  have hnc : t.requestMethodNumber ≠ .connect := by
    have : ∀ x ∈ methods, x.2 ≠ Method.connect := by decide
    exact this _ hmn
  have hcod : t.requestTransferCoding = .identity := by rw [h3.coding, hbody]; rfl
  have hcl : t.requestContentLength = some content.length := by rw [h3.contentLength, hbody]; rfl
  have hpos : content.length ≠ 0 := by rw [ne_eq, List.length_eq_zero_iff]; exact hne
  have r5 := round_connectCheck (e := e) (noted (requestFed r.head s)) h t
    (connectCallbacks r s.txs.request) ([] ++ (r.line ++ [13, 10] ++ renderBlock r.headers)) [] q' h1 hal hnc
  have r6 := round_determine_sized (e := e) (noted (requestFed r.head s)) { h with state := .bodyDetermine, statePrevious := .bodyDetermine } t
    (connectCallbacks r s.txs.request) ([] ++ (r.line ++ [13, 10] ++ renderBlock r.headers)) [] q' content.length rfl hal hcod hcl hpos
  obtain ⟨inp, r7⟩ := pause_body (e := e) (noted (requestFed r.head s)) { h with
      contentLength := some content.length, bodyDataLeft := some content.length, state := .bodyIdentity, statePrevious := .bodyIdentity }
    { t with requestProgress := .body } (connectCallbacks r s.txs.request) ([] ++ (r.line ++ [13, 10] ++ renderBlock r.headers)) q'
    content.length rfl h2.receiver rfl
  refine ⟨_, { t with requestProgress := .body }, ask_rounds hnil hst (by
    unfold Half.buffered
    rw [hb.buf, hb.header]
    exact Nat.zero_le _) (r4.append (.next r5 (.next r6 (.zero _)))) r7, rfl, ?_, ?_, ?_, rfl, rfl, ?_, rfl, rfl⟩
  · refine ⟨⟨h2.buf, h2.header, h2.receiver, rfl, rq_get _ _ _ _ _, ?_, ?_⟩, rfl, rfl, rfl⟩
    · exact .inl ((Txs.get_set _ _ _ _).trans ((if_neg (by show s.txs.request + 1 ≠ s.txs.request; omega)).trans
        (hb.beyond (s.txs.request + 1) (by omega))))
    · intro j (hj : s.txs.request + 1 < j)
      exact (Txs.get_set _ _ _ _).trans ((if_neg (by show j ≠ s.txs.request; omega)).trans (hb.beyond j (by omega)))
  · obtain ⟨p, hp⟩ := hr.protocol
    refine ⟨h3.index, h3.line, h3.method, hmn, h3.uri, h3.protocol, ?_, h3.notProtocol09, h5, hcod, hcl, h3.encoding, h4, rfl⟩
    show (r.protocol, t.requestProtocolNumber) ∈ _
    rw [h3.protocolNumber, (protocol_facts _ hp).1]
    exact hp
  · have := h3.unanswered
    unfold Unanswered at this ⊢
    exact this
  · intro j hj
    exact (Txs.get_set _ _ _ _).trans (if_neg hj)

/-! The field. -/

open Classical in
theorem expect_found {r : Request} (hw : ∀ h ∈ r.headers, h.WellFormed) (ha : r.Asks) (m : Flags) :
    ∃ x, Headers.getNocase (storedTable m (fieldsOf r.headers)) (b! "expect") = some x ∧ x.value = b! "100-continue" := by
  obtain ⟨a, h, b, hs, hn, hv, ho⟩ := ha
  have hlen : (fieldsOf r.headers).length = a.length + 1 + b.length := by
    rw [hs]; simp [fieldsOf]; omega
  have hat : field (fieldsOf r.headers) a.length = { name := h.name, value := h.value } := by
    rw [hs]
    simp [field, fieldsOf, List.getD]
  have hother : ∀ j, j < (fieldsOf r.headers).length → j ≠ a.length → ¬ EqNocase (field (fieldsOf r.headers) j).name (b! "expect") := by
    intro j hj hja
    rw [hlen] at hj
    rcases Nat.lt_or_ge j a.length with hlt | hge
    · have : field (fieldsOf r.headers) j = { name := a[j].name, value := a[j].value } := by
        rw [hs]
        unfold field fieldsOf List.getD
        rw [List.getElem?_map, List.getElem?_append_left hlt, List.getElem?_eq_getElem hlt]
        rfl
      rw [this]
      exact ho _ (List.mem_append_left _ (List.getElem_mem _))
    · obtain ⟨i, rfl⟩ : ∃ i, j = a.length + (i + 1) := ⟨j - a.length - 1, by omega⟩
      have hi : i < b.length := by omega
      have : field (fieldsOf r.headers) (a.length + (i + 1)) = { name := b[i].name, value := b[i].value } := by
        rw [hs]
        unfold field fieldsOf List.getD
        rw [List.getElem?_map, List.getElem?_append_right (by omega), Nat.add_sub_cancel_left, List.getElem?_cons_succ,
          List.getElem?_eq_getElem hi]
        rfl
      rw [this]
      exact ho _ (List.mem_append_right _ (List.getElem_mem _))
  have hname : ∀ i, i < (fieldsOf r.headers).length → (NameMatches (field (fieldsOf r.headers) i).name (b! "expect") ↔
      EqNocase (field (fieldsOf r.headers) i).name (b! "expect")) := by
    intro i hi
    exact nameMatches_trimmed (fields_trimmed hw _ (field_mem hi)).1
  have hsame : ∀ j, j < (fieldsOf r.headers).length → Spec.Same (fieldsOf r.headers) j a.length → j = a.length := by
    intro j hj hsj
    by_contra hne
    refine hother j hj hne (eqNocase_trans hsj ?_)
    rw [hat]
    exact hn
  have hb : before (fieldsOf r.headers) a.length = 0 := by
    unfold before
    rw [List.countP_eq_zero]
    intro k hk hs'
    simp only [decide_eq_true_eq] at hs'
    have hk' := List.mem_range.1 hk
    have := hsame k (by omega) hs'
    omega
  have hmem : stored m (fieldsOf r.headers) a.length ∈ storedTable m (fieldsOf r.headers) := by
    unfold storedTable
    exact List.mem_map.2 ⟨a.length, by simp [hb]; omega, rfl⟩
  have h1 := C04_headers_get_nocase (storedTable m (fieldsOf r.headers)) (b! "expect")
  cases hr : Headers.getNocase (storedTable m (fieldsOf r.headers)) (b! "expect") with
  | none =>
    rw [hr] at h1
    refine absurd ((hname a.length (by omega)).2 ?_) (h1 (stored m (fieldsOf r.headers) a.length) hmem)
    rw [hat]
    exact hn
  | some x =>
    rw [hr] at h1
    obtain ⟨c, d, h2, h3, -⟩ := h1
    obtain ⟨i, hi, hbi, rfl⟩ := mem_storedTable (x := x) (by rw [h2]; simp)
    have h4 := (hname i hi).1 h3
    obtain rfl : i = a.length := by
      by_contra hne
      exact hother i hi hne h4
    refine ⟨_, rfl, ?_⟩
    show (if _ then _ else _) = _
    split
    · rw [hat]; exact hv
    · have : (List.range (fieldsOf r.headers).length).filter (fun j => decide (Spec.Same (fieldsOf r.headers) j a.length ∧ Recorded (fieldsOf r.headers) j)) =
          (List.range (fieldsOf r.headers).length).filter (fun j => j == a.length) := by
        apply List.filter_congr
        intro j hj
        have hj' := List.mem_range.1 hj
        by_cases hja : j = a.length
        · subst hja
          simp only [beq_self_eq_true, decide_eq_true_eq]
          exact ⟨(eqNocase_map _ _).1 rfl, .inl (by omega)⟩
        · rw [show (j == a.length) = false from by simpa using hja]
          simp only [decide_eq_false_iff_not]
          exact fun h => hja (hsame j hj' h.1)
      rw [this]
      have : (List.range (fieldsOf r.headers).length).filter (fun j => j == a.length) = [a.length] := by
        rw [List.filter_beq, List.Nodup.count List.nodup_range, if_pos (List.mem_range.2 (by omega))]
        rfl
      rw [this]
      show (field (fieldsOf r.headers) a.length).value = _
      rw [hat]
      exact hv

/-! The response. -/

/-- The request parser is set to this. -/
def withReq (s : Conn) (h : Half) : Conn := { s with req := h }

/-- The request is refused. -/
theorem heeds_refused {e : Env} (s : Conn) {t : Tx} {n c : Nat} (hn : t.responseStatusNumber = .valid c) (hc : 400 ≤ c ∧ c ≤ 499)
    {x : Header} (hx : t.requestHeaders.getNocase (b! "expect") = some x) (hv : x.value = b! "100-continue")
    (hl : s.req.contentLength = some n) (hb : s.req.bodyDataLeft = some n) (h0 : n ≠ 0) :
    Heeds e s (withReq s { s.req with state := .finalize }) t := by
  intro h evs inp
  unfold responseExpect
  rw [rp_state_bind, rp_tx_bind, hx]
  have h1 : (t.responseStatusNumber.inRange 400 499 && decide ((rp s h t evs inp).req.contentLength.getD 0 > 0) &&
      (rp s h t evs inp).req.bodyDataLeft == (rp s h t evs inp).req.contentLength) = true := by
    rw [show (rp s h t evs inp).req = s.req from rfl, hl, hb, hn]
    simp [ResponseNumber.inRange]
    omega
  rw [h1]
  dsimp only
  rw [show (cmpSlice x.value (b! "100-continue") == .eq) = true from by rw [hv]; decide]
  rfl

/-- What is left behind by the answer to a request that is not complete. -/
theorem reads_answered {s s' : Conn} {t t' : Tx} {auto : Bool} {h : Half} {evs : List Event} {inp : PData}
    (hn : Reads s t) (hk : s.txs.response = s.txs.request) {s1 : Conn} (h1 : s1.txs = s.txs)
    (ha : AnswersDone auto (answered false s1 h t' evs inp) s' []) :
    s'.txs.get s.txs.request = some t' ∧
      (s'.txs.get (s.txs.request + 1) = none ∨ s'.txs.get (s.txs.request + 1) = some { index := s.txs.request + 1 }) ∧
      (∀ j, s.txs.request + 1 < j → s'.txs.get j = none) ∧
      s'.txs.response = s.txs.response + 1 ∧ s'.txs.request = s.txs.request ∧ s'.req = s1.req ∧
      ∀ j, j < s.txs.request → s'.txs.get j = s.txs.get j := by
  have hresp : s'.txs.response = s.txs.response + 1 := by
    have := ha.response
    simp only [answered, answeredTxs, h1] at this
    exact this
  have hreq : s'.txs.request = s.txs.request := by
    have := ha.request
    simp only [answered, answeredTxs, h1] at this
    exact this
  have hget : ∀ j, (answered false s1 h t' evs inp).txs.get j = if j = s.txs.response then some t' else s.txs.get j := by
    intro j
    show (answeredTxs false s1.txs t').get j = _
    rw [get_answered, h1]
  have hr1 : (answered false s1 h t' evs inp).txs.response = s.txs.response + 1 := by
    show s1.txs.response + 1 = _
    rw [h1]
  have hoth : ∀ j, j < s.txs.response + 1 ∨ s.txs.response + 1 < j → s'.txs.get j = if j = s.txs.response then some t' else s.txs.get j := by
    intro j hj
    rw [← hget]
    refine ha.others j ?_
    rw [hr1]
    simp
    omega
  refine ⟨?_, ?_, ?_, hresp, hreq, ha.req, ?_⟩
  · rw [hoth _ (by omega), if_pos hk.symm]
  · rw [← hk]
    have hnx := hn.next
    rw [← hk] at hnx
    rcases hnx with h0 | h0
    · have := ha.next
      rw [hr1] at this
      exact this (by rw [hget, if_neg (by simp)]; exact h0)
    · right
      have := ha.others (s.txs.response + 1) (by
        rw [hr1]
        refine .inr (.inr ⟨rfl, ?_⟩)
        rw [hget, if_neg (by simp), h0]
        rfl)
      rw [this, hget, if_neg (by simp), h0]
  · intro j hj
    rw [hoth j (by omega), if_neg (by omega)]
    exact hn.beyond j hj
  · intro j hj
    rw [hoth j (by omega), if_neg (by omega)]

/-- A request that is not complete is answered. -/
theorem call_early_answer {e : Env} (hcb : CallbacksOK e) {s : Conn} {t : Tx} (hn : Reads s t) (hi : t.index = s.txs.request)
    (hpr : t.requestProgress = .body) (h9 : t.isProtocol09 = false) (hm : t.requestMethodNumber ≠ .connect) (hu : Unanswered t)
    (hb : BetweenResponses s) (hk : s.txs.response = s.txs.request) {a : Response}
    (ha : a.WellFormed (decide (t.requestMethodNumber = .head))) (hlim : a.line.length + 2 ≤ e.cfg.fieldLimit) {g : Half}
    (hg : ∀ t1 : Tx, t1.requestHeaders = t.requestHeaders → t1.responseStatusNumber = .valid a.code →
      Heeds e (responseFed a.render s) (withReq (responseFed a.render s) g) t1) :
    ∃ s' t', responseData e (.ofBytes a.render) s = (.ok (some .data), s') ∧
      s'.trace = s.trace ++ (a.callbacks s.txs.request).dropLast ∧
      s'.txs.get s.txs.request = some t' ∧ RecordsResponse t' a ∧ requestSide t' = requestSide t ∧ BetweenResponses s' ∧
      (s'.txs.get (s.txs.request + 1) = none ∨ s'.txs.get (s.txs.request + 1) = some { index := s.txs.request + 1 }) ∧
      (∀ j, s.txs.request + 1 < j → s'.txs.get j = none) ∧
      s'.txs.response = s.txs.response + 1 ∧ s'.txs.request = s.txs.request ∧ s'.req = g ∧
      ∀ j, j < s.txs.request → s'.txs.get j = s.txs.get j := by
  have hst : s.resp.status ≠ .stop ∧ s.resp.status ≠ .error ∧ s.resp.status ≠ .tunnel ∧ s.resp.status ≠ .closed ∧
      s.resp.status ≠ .dataOther := by
    rcases hb.status with h | h | h <;> rw [h] <;> decide
  have hne : a.render ≠ [] := by simp [Response.render]
  have hren : a.render = a.line ++ [13, 10] ++ (renderBlock a.headers ++ (a.body.render ++ [])) := by
    simp [Response.render]
  have hb1 : BetweenResponses (responseFed a.render s) := ⟨hb.state, hb.buf, hb.header, hb.receiver, hb.status, hb.notBlocked⟩
  have hg1 : (responseFed a.render s).txs.get (responseFed a.render s).txs.response = some t := by
    show s.txs.get s.txs.response = _
    rw [hk]
    exact hn.current
  obtain ⟨h1, t1, r1, hst1, hrc1, hc1, hl1, hel1, hcl1, htab1, hrep1⟩ := connect_head hcb ha.head hb1 hg1 (hi.trans hk.symm)
    (by rw [hpr]; decide) h9 hu (done := []) (rest := a.body.render ++ []) (q := 0)
    (congrArg PData.ofBytes hren |>.trans rfl) hlim (answerFollows_headers ha (.inl rfl) (.inl rfl))
  have hal1 : Alive h1 := by unfold Alive; rw [hc1.status]; exact ⟨hst.2.2.1, hst.2.2.2.1⟩
  obtain ⟨k2, h2, t2, q2, r2, hst2, hrc2, hal2, hc2, hl2, henc2, hcod2, hsz2, hel2, htab2⟩ := answers_body_via hcb
    (responseFed a.render s) (withReq (responseFed a.render s) g) h1 t t1 ha
    (settles (passes_plain _ (by rw [hl1.method]; exact hm)) (hg t1 hl1.requestHeaders hl1.statusNumber) hl1.statusNumber ha.code.1)
    [.tx .responseStart (responseFed a.render s).txs.response, .tx .responseLine (responseFed a.render s).txs.response]
    ([] ++ (a.line ++ [13, 10])) [] hst1 hrc1 hal1 ⟨hc1.buf, hc1.header, hc1.status⟩ hl1 hel1 hcl1 htab1 hrep1 (.inl rfl) (.inl rfl)
  have rr := r1.append r2
  have e1 : ([] : Bytes) ++ (a.line ++ [13, 10]) ++ renderBlock a.headers ++ a.body.render = a.render := by
    simp [Response.render]
  rw [e1] at rr
  obtain ⟨ml, h3⟩ := complete_waiting hcb (withReq (responseFed a.render s) g) h2 t2
    ([.tx .responseStart s.txs.response, .tx .responseLine s.txs.response] ++
      ([.data .responseHeaderData s.txs.response (.ofBytes (renderBlock a.headers)), .tx .responseHeaders s.txs.response] ++
            a.body.answerCallbacks s.txs.response)) (win a.render [] q2) hrc2 (by rw [hc2.status]; exact hst.2.2.2.2) hb.notBlocked
    (by rw [hl2.requestProgress, hpr]; decide) hl2.progress henc2 (by rw [hel2]; exact ha.length)
  have r3 := answered_round (e := e) _ _ _ _ _ rfl (finalize_end hst2 hal2 h3) hal2.1 (by simp)
  obtain ⟨s4, h4, ha4, -⟩ := answers_idle (e := e) (s := answered false (withReq (responseFed a.render s) g)
      { h2 with state := .idle, statePrevious := .idle } { t2 with responseMessageLen := ml, responseProgress := .complete }
      ([.tx .responseStart s.txs.response, .tx .responseLine s.txs.response] ++
      ([.data .responseHeaderData s.txs.response (.ofBytes (renderBlock a.headers)), .tx .responseHeaders s.txs.response] ++
            a.body.answerCallbacks s.txs.response) ++ [.tx .responseComplete s.txs.response]) (win a.render [] q2))
    ⟨rfl, hc2.buf, hc2.header, hrc2, by show h2.status = _ ∨ h2.status = _ ∨ h2.status = _; rw [hc2.status]; exact hb.status, hb.notBlocked⟩ rfl
  have hcall := call_rounds hne ⟨hst.1, hst.2.1, hst.2.2.1, hst.2.2.2.1⟩ hb.buf hb.header (rr.append (.next r3 (.zero _))) h4
  obtain ⟨n1, n2, n3, n4, n5, n6, n7⟩ := reads_answered (s1 := withReq (responseFed a.render s) g) hn hk rfl ha4
  refine ⟨s4, _, hcall, ?_, n1, records_refused ha hl2 hcod2 hsz2 hel2 htab2, hl2.same, ha4.between, n2, n3, n4, n5, n6, n7⟩
  rw [ha4.trace]
  show s.trace ++ _ ++ [] = _
  rw [List.append_nil, ← hk, callbacks_dropLast]
  rfl

/-! The end. -/

/-- The request is over, and it has been answered. -/
theorem complete_ended {e : Env} (hcb : CallbacksOK e) (s : Conn) (h : Half) (t : Tx) (evs : List Event) (inp : PData)
    (hr : h.receiver = none) (hp : t.requestProgress ≠ .complete) (hp9 : t.isProtocol09 = false)
    (hrp : t.responseProgress = .complete) (hcod : t.requestTransferCoding = .identity)
    (henc : t.requestContentEncodingProcessing = .none) (hlen : t.requestEntityLen < 2 ^ 64) :
    ∃ ml, stateRequestComplete e (rq s h t evs inp) = (.ok (),
      finished e.cfg.txAutoDestroy s { h with state := .idle } { t with requestMessageLen := ml, requestProgress := .complete }
        (evs ++ (bodyCallbacks s.txs.request none ++ [.tx .requestComplete s.txs.request, .tx .transactionComplete s.txs.request])) inp) := by
  have hhb : t.requestHasBody = true := by unfold Tx.requestHasBody; rw [hcod]; rfl
  refine ⟨wrapAdd t.requestMessageLen 0, ?_⟩
  have h1 : requestBodyData e none (rq s h t evs inp) = (.ok (), rq s h { t with requestMessageLen := wrapAdd t.requestMessageLen 0 }
        (evs ++ bodyCallbacks s.txs.request none) inp) :=
    rq_bodyData hcb _ _ _ _ _ none (by simp) henc (by simpa using hlen)
  generalize ht' : ({ t with requestMessageLen := wrapAdd t.requestMessageLen 0, requestProgress := .complete } : Tx) = t'
  have hc' : t'.isComplete = true := by rw [← ht']; simp [Tx.isComplete, hrp]
  have hp9' : t'.isProtocol09 = false := by rw [← ht']; exact hp9
  have h2 : completeRequest e t (rq s h t evs inp) = (.ok (),
      rq s h t' (evs ++ (bodyCallbacks s.txs.request none ++ [.tx .requestComplete s.txs.request])) inp) := by
    unfold completeRequest
    rw [hhb, M.bind_ok (show M.when true (requestBodyData e none) _ = _ from h1), rq_modify_bind, rq_state_bind, rq_request,
      rq_hook_bind _ _ _ _ _ hcb, rq_finalizeClear_none _ _ _ _ _ hr, List.append_assoc, ← ht']
  unfold stateRequestComplete
  rw [rq_tx_bind, show (t.requestProgress != .complete) = true from by simpa using hp]
  rw [M.bind_ok (show M.when true (completeRequest e t) _ = _ from h2), rq_tx_bind, rq_setReq_bind, rq_state_bind, rq_request,
    hp9']
  have h3 : ∀ h', finalizeTx e s.txs.request (rq s h' t' (evs ++ (bodyCallbacks s.txs.request none ++ [.tx .requestComplete s.txs.request])) inp) =
      (.ok (), rq s h' t' (evs ++ (bodyCallbacks s.txs.request none ++
        [.tx .requestComplete s.txs.request, .tx .transactionComplete s.txs.request])) inp) := by
    intro h'
    unfold finalizeTx
    rw [rq_state_bind, rq_get]
    dsimp only
    rw [hc']
    refine (rq_hook s h' t' _ inp hcb .transactionComplete).trans ?_
    rw [List.append_assoc, List.append_assoc]
    rfl
  rw [M.bind_ok (h3 _)]
  unfold requestNext
  have h4 : ∀ evs' h', ((rq s h' t' evs' inp).txs).requestNext e.cfg.txAutoDestroy = finishedTxs e.cfg.txAutoDestroy s.txs t' := by
    intro evs' h'
    unfold Txs.requestNext Txs.checkFree finishedTxs
    rw [rq_request, rq_get]
    dsimp only
    rw [hc']
    cases e.cfg.txAutoDestroy <;> rfl
  show (Except.ok (), ({ rq s _ _ _ inp with connFlags := _, txs := _ } : Conn)) = _
  rw [h4]
  rfl

/-- Requests follow, or nothing: the one before is over. -/
theorem finalize_ended {e : Env} (hcb : CallbacksOK e) (s : Conn) (h : Half) (t : Tx) (evs : List Event)
    (done rest : Bytes) (hn : Upcoming rest) (q : Nat) (hst : h.state = .finalize) (hal : Alive h) (hbuf : h.buf = []) (hrc : h.receiver = none)
    (hp : t.requestProgress ≠ .complete) (hp9 : t.isProtocol09 = false)
    (hrp : t.responseProgress = .complete) (hcod : t.requestTransferCoding = .identity)
    (henc : t.requestContentEncodingProcessing = .none) (hlen : t.requestEntityLen < 2 ^ 64) :
    ∃ ml b dl, (dl = none ∨ dl = h.bodyDataLeft) ∧ requestStep e (rq s h t evs (win done rest q)) = (.ok none,
      finished e.cfg.txAutoDestroy s { h with bytesConsumed := b, bodyDataLeft := dl, state := .idle, statePrevious := .idle }
        { t with requestMessageLen := ml, requestProgress := .complete }
        (evs ++ (bodyCallbacks s.txs.request none ++ [.tx .requestComplete s.txs.request, .tx .transactionComplete s.txs.request]))
        (win done rest q)) := by
  rcases hn with rfl | ⟨r, hr, rest, rfl⟩
  · obtain ⟨ml, h2⟩ := complete_ended hcb s h t evs (win done [] q) hrc hp hp9 hrp hcod henc hlen
    refine ⟨ml, h.bytesConsumed, h.bodyDataLeft, .inr rfl, finished_round (e := e) s { h with state := .idle }
        { t with requestMessageLen := ml, requestProgress := .complete } _ _ rfl ?_ hal.1 (by simp)⟩
    rw [hrs (st := .finalize) hst]
    show requestFinalize e _ = _
    unfold requestFinalize
    rw [rq_state_bind, rq_input, win_isGap, if_neg (by simp), rq_req, if_neg hal.2, win_asSlice, if_pos rfl]
    exact h2
  · have hfw := firstWord_line hr [13, 10]
    obtain ⟨m, hm⟩ := hr.method
    obtain ⟨m0, m3, m1, -, -, -⟩ := KnownMethods.facts _ hm
    dsimp only at m0 m1 m3
    obtain ⟨ml, h2⟩ := complete_ended hcb s { h with bytesConsumed := done.length, bodyDataLeft := none } t evs
      (win done (r.line ++ [13, 10] ++ rest) q) hrc hp hp9 hrp hcod henc hlen
    refine ⟨ml, done.length, none, .inl rfl, finished_round (e := e) s { h with state := .idle, bytesConsumed := done.length, bodyDataLeft := none }
        { t with requestMessageLen := ml, requestProgress := .complete } _ _ rfl ?_ hal.1 (by simp)⟩
    rw [hrs (st := .finalize) hst]
    show requestFinalize e _ = _
    unfold requestFinalize
    have hl : takeTillLf (r.line ++ [13, 10] ++ rest) = .ok rest (r.line ++ [13, 10]) := by
      have := takeTillLf_line (x := r.line ++ [13]) (rest := rest) (fun h => (line_noEnd hr _ h).1 rfl)
      simpa using this
    rw [rq_state_bind, rq_input, win_isGap, if_neg (by simp), rq_req, if_neg hal.2, win_asSlice, if_neg (by simp), hl]
    dsimp only
    rw [rq_consume_bind, win_consume]
    unfold requestFinalizeLine
    rw [rq_state_bind, rq_req]
    dsimp only
    rw [show decide (h.buf ≠ []) = false from by simp [hbuf]]
    refine (M.when_false_bind _ _ _).trans ?_
    have e2 : h.buf ++ (r.line ++ [13, 10]) = r.line ++ [13, 10] := by rw [hbuf]; rfl
    rw [rq_setReq_bind, e2, if_neg (by simp), hfw, if_neg m1, m0, if_neg m3, rq_setReq_bind, rq_unconsume_bind, win_unconsume]
    exact h2

/-- The state in which the next request is read. -/
theorem between_ended {auto : Bool} {s : Conn} {t : Tx} (h : Reads s t) {b : Bytes} {hh : Half} {t' : Tx} {evs : List Event} {inp : PData}
    (h1 : hh.state = .idle) (h2 : hh.buf = []) (h3 : hh.header = none) (h4 : hh.receiver = none) (h5 : hh.status = s.req.status) :
    BetweenRequests (finished auto (requestFed b s) hh t' evs inp) := by
  have hget : ∀ j, s.txs.request < j → (finishedTxs auto s.txs t').get j = s.txs.get j := by
    intro j hj
    rw [get_finished, if_neg (by omega)]
  refine ⟨h1, h2, h3, h4, ?_, ?_, ?_⟩
  · show hh.status = _ ∨ hh.status = _ ∨ hh.status = _ ∨ hh.status = _
    rw [h5, h.status]
    exact .inr (.inr (.inl rfl))
  · have := hget (s.txs.request + 1) (by omega)
    exact h.next.imp this.trans this.trans
  · intro j (hj : s.txs.request + 1 < j)
    exact (hget j (by omega)).trans (h.beyond j hj)

/-- The body comes, and requests after it. -/
theorem call_body {e : Env} (hw : Willing e) (rs : List Request)
    (hr : ∀ r ∈ rs, r.WellFormed ∧ r.line.length + 2 ≤ e.cfg.fieldLimit) {s : Conn} (hs : Txs.Sorted s.txs.map) {t : Tx} {k : Nat}
    {r0 : Request} {content : Bytes} (hr0 : r0.WellFormed) (hbody : r0.body = .sized content) (hne : content ≠ [])
    (h : AtBody s t content.length) (hq : RecordsHead t k r0 content.length) (hm : s.txs.map.length + rs.length ≤ e.cfg.maxTx) :
    ∃ s' t', requestData e (.ofBytes (content ++ rs.flatMap Request.render)) s = (.ok (some .data), s') ∧
      s'.trace = s.trace ++ (r0.body.callbacks s.txs.request ++ [.tx .requestComplete s.txs.request] ++
        (if t.responseProgress = .complete then [.tx .transactionComplete s.txs.request] else []) ++ requestCallbacks (s.txs.request + 1) rs) ∧
      s'.txs.get s.txs.request = (if t.responseProgress = .complete ∧ e.cfg.txAutoDestroy then none else some t') ∧
      Records t' k r0 ∧ responseSide t' = responseSide t ∧
      (∀ i r, rs[i]? = some r → ∃ t, s'.txs.get (s.txs.request + 1 + i) = some t ∧ Records t (s.txs.request + 1 + i) r ∧ Unanswered t) ∧
      (∀ j, j < s.txs.request → s'.txs.get j = s.txs.get j) ∧ s'.txs.request = s.txs.request + 1 + rs.length ∧
      s'.txs.response = s.txs.response ∧ BetweenRequests s' ∧
      s'.resp = (if s.resp.status = .dataOther then { s.resp with status := .data } else s.resp) ∧
      s'.responseDataOtherAtTxEnd = s.responseDataOtherAtTxEnd ∧ (rs = [] → ¬ WholeBodyAhead s'.req) := by
  have hup := next_of_requests rs fun r hr' => (hr r hr').1
  have hlen : content.length < 2 ^ 64 := by
    have := hr0.length
    rw [hbody] at this
    exact this
  have hnil : content ++ rs.flatMap Request.render ≠ [] := by simp [hne]
  generalize hb : content ++ rs.flatMap Request.render = b at hnil
  have hself : rq (requestFed b s) (requestFed b s).req t [] (win [] (content ++ rs.flatMap Request.render) 0) = requestFed b s := by
    rw [hb]
    exact rq_self (s := requestFed b s) hs h.current _ rfl
  have r1 := round_identity (e := e) hw.callbacks (requestFed b s) (requestFed b s).req t [] [] content (rs.flatMap Request.render) 0
    h.state ⟨h.live.2.2.1, h.live.2.2.2⟩ h.left hne hq.noCoding (by rw [hq.bodyLength, Nat.zero_add]; exact hlen)
  rw [hself] at r1
  have hev : r0.body.callbacks s.txs.request = bodyCallbacks s.txs.request (some content) ++ bodyCallbacks s.txs.request none ++
      bodyCallbacks s.txs.request none := by
    rw [hbody]
    show (if content = [] then _ else _) ++ _ = _
    rw [if_neg hne]
  have hrec : ∀ ml, Records { t with
      requestMessageLen := ml, requestEntityLen := t.requestEntityLen + content.length, requestProgress := .complete } k r0 := by
    intro ml
    refine ⟨hq.index, hq.line, hq.method, hq.methodNumber, hq.uri, hq.protocol, hq.protocolNumber, hq.notProtocol09, ?_, ?_, ?_, ?_, rfl⟩
    · rw [hbody]
      simpa [Body.trailer] using hq.headers
    · rw [hbody]; exact hq.coding
    · rw [hbody]; exact hq.contentLength
    · rw [hbody]
      show t.requestEntityLen + _ = _
      rw [hq.bodyLength, Nat.zero_add]
      rfl
  have hel : t.requestEntityLen + content.length < 2 ^ 64 := by rw [hq.bodyLength, Nat.zero_add]; exact hlen
  have hdl : ∀ dl : Option Nat, dl = none ∨ dl = some 0 → dl ≠ s.req.contentLength := by
    rintro dl (rfl | rfl) <;> rw [h.length]
    · simp
    · simp only [ne_eq, Option.some.injEq]
      exact fun h0 => hne (List.length_eq_zero_iff.1 h0.symm)
  by_cases hrp : t.responseProgress = .complete
  · obtain ⟨ml, n, dl, hd, r2⟩ := (fun {h t evs done q} (_ : requestStep e _ = (.ok none, rq (requestFed b s) h t evs (win done (rs.flatMap Request.render) q))) =>
      finalize_ended (e := e) hw.callbacks (requestFed b s) h t evs done _ hup q) r1 rfl ⟨h.live.2.2.1, h.live.2.2.2⟩ h.buf h.receiver
      (by show t.requestProgress ≠ _; rw [hq.progress]; decide) hq.notProtocol09 hrp hq.coding hq.noCoding hel
    obtain ⟨s', c1, c2, c3, c4, c5, c6, c7, c8, c9, c10, c11⟩ := call_resume_via hw rs hnil hr hs (by rw [h.current]; rfl) h.live (h.buffered _) (.next r1 (.next r2 (.zero _)))
      (between_ended h.toReads rfl h.buf h.header h.receiver rfl) hm
    refine ⟨s', _, c1, ?_, ?_, hrec ml, rfl, c4, c5, c6, c7, c8, c9, c10, fun h0 => ?_⟩
    · rw [c2, if_pos hrp, hev]
      simp [requestFed]
    · rw [c3]
      simp [hrp]
    · rw [c11 h0]
      exact fun hw => hdl _ hd hw.2
  · obtain ⟨ml, n, dl, hd, r2⟩ := (fun {h t evs done q} (_ : requestStep e _ = (.ok none, rq (requestFed b s) h t evs (win done (rs.flatMap Request.render) q))) =>
      round_finalize_left (e := e) hw.callbacks (requestFed b s) h t evs done (rs.flatMap Request.render) q) r1 rfl ⟨h.live.2.2.1, h.live.2.2.2⟩ h.header
      (by
        show Resumed e s.req.buf _ _
        rw [h.buf]; exact hup.resumed e _) h.receiver
      (by show t.requestProgress ≠ _; rw [hq.progress]; decide) hq.notProtocol09 hrp hq.noCoding hel
    obtain ⟨s', c1, c2, c3, c4, c5, c6, c7, c8, c9, c10, c11⟩ := call_resume_via (auto := false) hw rs hnil hr hs (by rw [h.current]; rfl) h.live (h.buffered _)
      (.next r1 (.next r2 (.zero _))) (between_ended h.toReads rfl h.buf h.header h.receiver rfl) hm
    refine ⟨s', _, c1, ?_, ?_, hrec ml, rfl, c4, c5, c6, c7, c8, c9, c10, fun h0 => ?_⟩
    · rw [c2, if_neg hrp, hev]
      show _ = s.trace ++ _
      have h0 : ∀ (x : Tx) (y z : List Event), x.requestTransferCoding = .identity → (if x.requestHasBody then y else z) = y := by
        intro x y z hx
        unfold Tx.requestHasBody
        rw [hx]
        rfl
      rw [h0]
      · simp [requestFed]
      · exact hq.coding
    · rw [c3]
      simp [hrp]
    · rw [c11 h0]
      exact fun hw => hdl _ hd hw.2

/-- Requests follow one that has been given up. -/
theorem call_next {e : Env} (hw : Willing e) (rs : List Request) (hne : rs ≠ [])
    (hr : ∀ r ∈ rs, r.WellFormed ∧ r.line.length + 2 ≤ e.cfg.fieldLimit) {s : Conn} (hs : Txs.Sorted s.txs.map) {t : Tx}
    (h : GivenUp s t) (hp : t.requestProgress ≠ .complete) (hp9 : t.isProtocol09 = false)
    (hrp : t.responseProgress = .complete) (hcod : t.requestTransferCoding = .identity)
    (henc : t.requestContentEncodingProcessing = .none) (hlen : t.requestEntityLen < 2 ^ 64)
    (hm : s.txs.map.length + rs.length ≤ e.cfg.maxTx) :
    ∃ s' ml, requestData e (.ofBytes (rs.flatMap Request.render)) s = (.ok (some .data), s') ∧
      s'.trace = s.trace ++ (bodyCallbacks s.txs.request none ++
        [.tx .requestComplete s.txs.request, .tx .transactionComplete s.txs.request] ++ requestCallbacks (s.txs.request + 1) rs) ∧
      s'.txs.get s.txs.request = (if e.cfg.txAutoDestroy then none else
        some { t with requestMessageLen := ml, requestProgress := .complete }) ∧
      (∀ i r, rs[i]? = some r → ∃ t, s'.txs.get (s.txs.request + 1 + i) = some t ∧ Records t (s.txs.request + 1 + i) r ∧ Unanswered t) ∧
      (∀ j, j < s.txs.request → s'.txs.get j = s.txs.get j) ∧ s'.txs.request = s.txs.request + 1 + rs.length ∧
      s'.txs.response = s.txs.response ∧ BetweenRequests s' ∧
      s'.resp = (if s.resp.status = .dataOther then { s.resp with status := .data } else s.resp) ∧
      s'.responseDataOtherAtTxEnd = s.responseDataOtherAtTxEnd := by
  have hself : rq (requestFed (rs.flatMap Request.render) s) (requestFed (rs.flatMap Request.render) s).req t []
      (win [] (rs.flatMap Request.render) 0) = requestFed (rs.flatMap Request.render) s :=
    rq_self (s := requestFed (rs.flatMap Request.render) s) hs h.current _ rfl
  obtain ⟨ml, n, dl, -, r1⟩ := finalize_ended hw.callbacks (requestFed (rs.flatMap Request.render) s)
    (requestFed (rs.flatMap Request.render) s).req t [] [] _ (next_of_requests rs fun r hr' => (hr r hr').1) 0 h.state ⟨h.live.2.2.1, h.live.2.2.2⟩ h.buf h.receiver hp hp9 hrp hcod henc hlen
  rw [hself] at r1
  obtain ⟨s', c1, c2, c3, c4, c5, c6, c7, c8, c9, c10, -⟩ := call_resume_via hw rs (requests_ne hne) hr hs (by rw [h.current]; rfl) h.live (h.buffered _) (.next r1 (.zero _))
    (between_ended h.toReads rfl h.buf h.header h.receiver rfl) hm
  exact ⟨s', ml, c1, c2, c3, c4, c5, c6, c7, c8, c9, c10⟩

end Model

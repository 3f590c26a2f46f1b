/-
Interim responses, and the final response after them.
-/
import Verif.Lemmas.AnsRun
import Verif.Lemmas.AnsStages
import Verif.Spec.Interim

namespace Model

open M Spec Props

theorem extras_zero {hs : List Header} {n : Nat} (h : ∀ j, j < n → before hs j < 2) : extras hs n = 0 := by
  unfold extras
  rw [List.countP_eq_zero]
  intro j hj
  have := h j (List.mem_range.1 hj)
  simpa using this

/-- The status line of a response to `t0` is awaited. -/
structure LineReady (s : Conn) (t0 : Tx) (h : Half) (t : Tx) : Prop where
  state : h.state = .line ∧ h.statePrevious = .line
  buf : h.buf = []
  header : h.header = none
  status : h.status = s.resp.status
  same : requestSide t = requestSide t0
  noHeaders : t.responseHeaders = []
  noRepetitions : t.responseHeaderRepetitions = 0
  noLength : t.responseContentLength = none
  noBody : t.responseEntityLen = 0
  parser : t.responseHeaderParser = { side := .response }

theorem LineReady.index {s : Conn} {t0 t : Tx} {h : Half} (hl : LineReady s t0 h t) : t.index = t0.index := by
  have := congrArg Tx.index hl.same
  exact this

theorem LineReady.method {s : Conn} {t0 t : Tx} {h : Half} (hl : LineReady s t0 h t) :
    t.requestMethodNumber = t0.requestMethodNumber := by
  have := congrArg Tx.requestMethodNumber hl.same
  exact this

/-- The end of an interim response. -/
theorem interim_determine {e : Env} {i : Response} (hi : i.Interim) (s : Conn) (h : Half) (t : Tx) (evs : List Event)
    (done rest : Bytes) (q : Nat) (hst : h.state = .bodyDetermine) (ha : Alive h)
    (ht : t.responseHeaders = storedTable HFlag.FIELD_REPEATED (fieldsOf i.headers))
    (hm : t.requestMethodNumber ≠ .connect) (hn : t.responseStatusNumber = .valid i.code) :
    responseStep e (rp s h t evs (win done rest q)) = (.ok none,
      rp s { h with state := .line, statePrevious := .line }
        { t with responseHeaders := [], responseProgress := .line, seen100Continue := true } evs (win done rest q)) := by
  refine rp_round (s0 := rp s h t evs (win done rest q)) s { h with state := .line } _ _ _ rfl ?_ ha.1 (by simp)
  rw [hps (st := .bodyDetermine) hst]
  show responseBodyDetermine e _ = _
  have h1 : t.responseHeaders.getNocaseNozero (b! "transfer-encoding") = none := by
    rw [ht]
    exact lookup_none hi.head.headers (fun x hx he => hi.noCoding x ⟨hx, he⟩) _
  have h2 : t.responseHeaders.getNocaseNozero (b! "content-length") = none := by
    rw [ht]
    exact lookup_none hi.head.headers (fun x hx he => hi.noLength x ⟨hx, he⟩) _
  unfold responseBodyDetermine responseConnect
  rw [M.bind_bind, rp_tx_bind, if_neg hm]
  show responseDetermineRest e _ = _
  unfold responseDetermineRest
  rw [rp_tx_bind, h1, h2]
  have h3 : responseInterim e none none (rp s h t evs (win done rest q)) = (.ok .again,
      rp s { h with state := .line } { t with responseHeaders := [], responseProgress := .line, seen100Continue := true } evs
        (win done rest q)) := by
    unfold responseInterim
    rw [rp_tx_bind, if_neg (by rw [hn, hi.code]; simp [ResponseNumber.eqNum]),
      if_pos (by rw [hn, hi.code]; simp [ResponseNumber.eqNum]), if_neg (by simp)]
    unfold responseContinue
    rw [M.bind_bind, rp_setResp_bind, rp_modify_bind]
    rfl
  rw [M.bind_ok h3]
  rfl

theorem _root_.Spec.Response.Interim.renders {i : Response} (hi : i.Interim) : i.render = i.line ++ [13, 10] ++ renderBlock i.headers := by
  unfold Response.render
  rw [hi.body]
  simp [Body.render]

/-- An interim response. -/
theorem interim_one {e : Env} (hcb : CallbacksOK e) {i : Response} (hi : i.Interim) (s : Conn) (t0 : Tx) (h : Half) (t : Tx)
    (hl : LineReady s t0 h t) (hm : t0.requestMethodNumber ≠ .connect) (hx : t0.index = s.txs.response) (ha : Alive h)
    (hlim : i.line.length + 2 ≤ e.cfg.fieldLimit) (evs : List Event) (done rest : Bytes) (q : Nat) (hf : AnswerFollows i.headers rest) :
    ∃ h' t', Rounds (responseStep e) 3 (rp s h t evs (win done (i.render ++ rest) q))
        (rp s h' t' (evs ++ [.tx .responseLine s.txs.response])
          (win (done ++ (i.line ++ [13, 10]) ++ renderBlock i.headers) rest (done ++ (i.line ++ [13, 10])).length)) ∧
      LineReady s t0 h' t' ∧ h'.receiver = some .responseHeaderData ∧ t'.seen100Continue = true ∧ t'.responseProgress = .line := by
  have r1 := answer_line hcb hi.head s h t evs done (renderBlock i.headers ++ rest) q hl.state.1 hl.state.2 hl.buf hl.header ha hlim
    (hl.index.trans hx)
  have r2 := (fun {h t evs done q}
    (_ : responseStep e _ = (.ok none, rp s h t evs (win done (renderBlock i.headers ++ rest) q))) =>
    answer_headers (e := e) hi.head s h t evs done rest q) r1 rfl hl.header ha rfl hl.noHeaders hl.noRepetitions hf
  have r3 := (fun {h t evs done q}
    (_ : responseStep e _ = (.ok none, rp s h t evs (win done rest q))) =>
    interim_determine (e := e) hi s h t evs done rest q) r2 rfl ha rfl (by show t.requestMethodNumber ≠ _; rw [hl.method]; exact hm) rfl
  rw [hi.renders, List.append_assoc _ (renderBlock _)]
  refine ⟨_, _, .next r1 (.next r2 (.next r3 (.zero _))), ⟨⟨rfl, rfl⟩, rfl, rfl, hl.status, ?_, rfl, ?_, hl.noLength, hl.noBody, hl.parser⟩,
    rfl, rfl, rfl⟩
  · exact hl.same
  · show min 64 (extras _ _) = 0
    rw [extras_zero (fun j hj => hi.repeated j (by simpa [fieldsOf] using hj))]
    rfl

/-- Interim responses, one after the other. -/
theorem interims_many {e : Env} (hcb : CallbacksOK e) (s : Conn) (t0 : Tx) (hm : t0.requestMethodNumber ≠ .connect)
    (hx : t0.index = s.txs.response) (hal : s.resp.status ≠ .tunnel ∧ s.resp.status ≠ .closed) (rest : Bytes)
    (hrest : ∀ c ∈ rest.head?, c ≠ 32 ∧ c ≠ 9 ∧ c ≠ 13) (is : List Response) :
    (∀ i ∈ is, i.Interim ∧ i.line.length + 2 ≤ e.cfg.fieldLimit) → (∀ i ∈ is.dropLast, i.headers ≠ []) →
    (∀ i ∈ is.getLast?, i.headers = [] → rest = []) →
    ∀ (h : Half) (t : Tx) (evs : List Event) (done : Bytes) (q : Nat), LineReady s t0 h t →
    ∃ k h' t' q', Rounds (responseStep e) k (rp s h t evs (win done (is.flatMap Response.render ++ rest) q))
        (rp s h' t' (evs ++ is.map fun _ => .tx .responseLine s.txs.response) (win (done ++ is.flatMap Response.render) rest q')) ∧
      LineReady s t0 h' t' ∧ (is = [] → h' = h ∧ t' = t ∧ q' = q) ∧
      (∀ i ∈ is.getLast?, ∃ d, done ++ is.flatMap Response.render = d ++ renderBlock i.headers ∧ q' = d.length ∧
        h'.receiver = some .responseHeaderData ∧ t'.seen100Continue = true ∧ t'.responseProgress = .line) := by
  induction is with
  | nil =>
    intro _ _ _ h t evs done q hl
    refine ⟨0, h, t, q, ?_, hl, fun _ => ⟨rfl, rfl, rfl⟩, fun i hi => by cases hi⟩
    simp only [List.flatMap_nil, List.nil_append, List.map_nil, List.append_nil]
    exact .zero _
  | cons i is ih =>
    intro hi hh hlast h t evs done q hl
    have hii := hi i (by simp)
    have hfol : AnswerFollows i.headers (is.flatMap Response.render ++ rest) := by
      cases is with
      | nil => exact ⟨fun h0 => by simpa using hlast i (by simp) h0, by simpa using hrest⟩
      | cons j js =>
        refine ⟨fun h0 => absurd h0 (hh i (by simp)), ?_⟩
        intro c hc
        obtain ⟨cs, hcs⟩ := response_cons (hi j (by simp)).1.head
        have : ((j :: js).flatMap Response.render ++ rest).head? = some 72 := by
          simp [Response.render, hcs]
        rw [this] at hc
        cases hc
        decide
    obtain ⟨h1, t1, r1, hl1, hrc1, hs1, hp1⟩ := interim_one hcb hii.1 s t0 h t hl hm hx
      (by unfold Alive; rw [hl.status]; exact hal) hii.2 evs done (is.flatMap Response.render ++ rest) q hfol
    obtain ⟨k, h2, t2, q2, r2, hl2, hnil, hfin⟩ := ih (fun j hj => hi j (by simp [hj]))
      (fun j hj => hh j (by cases is with | nil => cases hj | cons a as => exact List.mem_cons_of_mem _ hj))
      (fun j hj => hlast j (by cases is with | nil => cases hj | cons a as => exact hj)) h1 t1 (evs ++ [.tx .responseLine s.txs.response])
      (done ++ (i.line ++ [13, 10]) ++ renderBlock i.headers) (done ++ (i.line ++ [13, 10])).length hl1
    have hd : done ++ (i.line ++ [13, 10]) ++ renderBlock i.headers = done ++ i.render := by rw [hii.1.renders]; simp
    have hd2 : ∀ x : Bytes, done ++ (i :: is).flatMap Response.render ++ x = done ++ i.render ++ is.flatMap Response.render ++ x := by
      intro x; simp
    rw [hd] at r1 r2 hfin
    refine ⟨3 + k, h2, t2, q2, ?_, hl2, (fun h0 => absurd h0 (by simp)), ?_⟩
    · have := r1.append r2
      simpa [List.append_assoc] using this
    · intro j hj
      cases is with
      | nil =>
        cases hj
        obtain ⟨rfl, rfl, rfl⟩ := hnil rfl
        refine ⟨done ++ (i.line ++ [13, 10]), ?_, rfl, hrc1, hs1, hp1⟩
        show done ++ List.flatMap Response.render [i] = done ++ (i.line ++ [13, 10]) ++ renderBlock i.headers
        rw [hd]
        simp
      | cons a as =>
        have := hfin j hj
        simpa using this

/-- The final response, at the end of the data. -/
theorem final_from {e : Env} (hcb : CallbacksOK e) {r : Response} (s : Conn) (t0 : Tx) (hans : AnswerableNow s t0 r) (h : Half) (t : Tx)
    (hl : LineReady s t0 h t) (hx : t0.index = s.txs.response)
    (hal : s.resp.status ≠ .tunnel ∧ s.resp.status ≠ .closed ∧ s.resp.status ≠ .dataOther) (hblk : s.responseDataOtherAtTxEnd = false)
    (hlim : r.line.length + 2 ≤ e.cfg.fieldLimit) (evs : List Event) (done : Bytes) (q : Nat) :
    ∃ k h' t' q', Rounds (responseStep e) k (rp s h t evs (win done r.render q))
        (answered e.cfg.txAutoDestroy s h' t' (evs ++ (r.callbacks s.txs.response).tail) (win (done ++ r.render) [] q')) ∧
      h'.state = .idle ∧ h'.buf = [] ∧ h'.header = none ∧ h'.receiver = none ∧ h'.status = s.resp.status ∧
      RecordsResponse t' r ∧ requestSide t' = requestSide t0 := by
  have hr := hans.response
  have halive : ∀ {h : Half}, h.status = s.resp.status → Alive h := by
    intro h hs
    unfold Alive
    rw [hs]
    exact ⟨hal.1, hal.2.1⟩
  have hren : r.render = r.line ++ [13, 10] ++ (renderBlock r.headers ++ (r.body.render ++ [])) := by
    simp [Response.render]
  have r1 := answer_line hcb hr.head s h t evs done (renderBlock r.headers ++ (r.body.render ++ [])) q hl.state.1 hl.state.2 hl.buf
    hl.header (halive hl.status) hlim (hl.index.trans hx)
  rw [← hren] at r1
  have r2 := (fun {h t evs done q}
    (_ : responseStep e _ = (.ok none, rp s h t evs (win done (renderBlock r.headers ++ (r.body.render ++ [])) q))) =>
    answer_headers (e := e) hr.head s h t evs done (r.body.render ++ []) q) r1 rfl hl.header (halive hl.status) rfl hl.noHeaders
    hl.noRepetitions (answerFollows_headers hr (.inl rfl) (.inl rfl))
  have hset : ∀ {t' : Tx}, LineRead t0 r t' → Settles e s s t' := by
    intro t' ht
    refine settles (passes_plain s (by rw [ht.method]; exact hans.notConnect)) ?_ ht.statusNumber hr.code.1
    rcases hans.notRefused with h | h | h
    · exact heeds_none s ht.statusNumber (.inl (by rw [ht.requestHeaders]; exact h))
    · exact heeds_none s ht.statusNumber (.inr h)
    · exact heeds_begun h _
  obtain ⟨k3, h3, t3, q3, r3, hst3, hrc3, hal3, hc3, hh3, henc3, hcod3, hsz3, hel3, htab3⟩ := (fun {h t evs done}
      (_ : responseStep e _ = (.ok none, rp s h t evs (win (done ++ renderBlock r.headers) (r.body.render ++ []) done.length))) =>
    fun (hm : Settles e s s t) => answers_body_via (e := e) hcb s s h t0 t hr hm evs done []) r2 (hset ⟨hl.same, rfl, rfl, rfl, rfl, rfl, rfl, by show Progress.headers ≠ .complete; decide⟩) rfl rfl (halive hl.status) ⟨rfl, rfl, hl.status⟩
    ⟨hl.same, rfl, rfl, rfl, rfl, rfl, rfl, by show Progress.headers ≠ .complete; decide⟩ hl.noBody hl.noLength rfl rfl (.inl rfl) (.inl rfl)
  obtain ⟨ml, b, r4⟩ := answer_finalize (e := e) hcb s h3 t3 _ _ [] q3 hst3 hal3 hc3.buf (.inl rfl) hrc3
    (by rw [hc3.status]; exact hal.2.2) hblk (by rw [hh3.requestProgress]; exact hans.complete) hh3.progress henc3
    (by rw [hel3]; exact hr.length)
  have := Rounds.next r1 (.next r2 (r3.append (.next r4 (.zero _))))
  refine ⟨k3 + (0 + 1) + 1 + 1, { h3 with bytesConsumed := b, state := .idle, statePrevious := .idle },
    { t3 with responseMessageLen := ml, responseProgress := .complete }, q3, ?_, rfl, hc3.buf, hc3.header, hrc3, hc3.status, ?_, hh3.same⟩
  · have e1 : done ++ (r.line ++ [13, 10]) ++ renderBlock r.headers ++ r.body.render = done ++ r.render := by
      simp [Response.render]
    have e2 : evs ++ [Event.tx .responseLine s.txs.response] ++
        ([.data .responseHeaderData s.txs.response (.ofBytes (renderBlock r.headers)), .tx .responseHeaders s.txs.response] ++
          r.body.answerCallbacks s.txs.response) ++ [.tx .responseComplete s.txs.response, .tx .transactionComplete s.txs.response] =
        evs ++ (r.callbacks s.txs.response).tail := by
      simp [Response.callbacks]
    rw [e1, e2] at this
    exact this
  · obtain ⟨p, hp⟩ := hr.protocol
    refine ⟨hh3.line, hh3.protocol, ?_, hh3.status, hh3.statusNumber, hh3.message, htab3, hcod3, hsz3, hel3, rfl⟩
    show (r.protocol, t3.responseProtocolNumber) ∈ _
    rw [hh3.protocolNumber, (protocol_facts _ hp).1]
    exact hp

/-- One call. -/
theorem call_rounds {e : Env} {s s1 s2 : Conn} {b : Bytes} {k : Nat} {st : StreamState} (hb : b ≠ [])
    (hst : s.resp.status ≠ .stop ∧ s.resp.status ≠ .error ∧ s.resp.status ≠ .tunnel ∧ s.resp.status ≠ .closed)
    (hbuf : s.resp.buf = []) (hhdr : s.resp.header = none) (r1 : Rounds (responseStep e) k (responseFed b s) s1)
    (h2 : responseStep e s1 = (.ok (some st), s2)) : responseData e (.ofBytes b) s = (.ok (some st), s2) := by
  rw [responseData_data hb hst.1 hst.2.1 hst.2.2.1]
  have hok : RespOK e (responseFed b s) := by
    refine ⟨toPData_wf (.data b), rfl, Nat.zero_le _, fun h => absurd h hst.2.2.2, ?_⟩
    show s.resp.buf.length + (s.resp.header.getD []).length ≤ _
    rw [hbuf, hhdr]
    exact Nat.zero_le _
  have hk : k < 16 * (b.length + 2 * s.resp.buf.length + 2) := by
    have := (response_rounds e r1 hok).2
    have := respMeasure_lt_rounds (responseFed b s)
    have hx : responseRounds (responseFed b s) = 16 * (b.length + 2 * s.resp.buf.length + 2) := by
      unfold responseRounds
      rw [show (responseFed b s).input.len = b.length from toPData_len (.data b)]
      rfl
    omega
  obtain ⟨N, hN⟩ : ∃ N, 16 * (b.length + 2 * s.resp.buf.length + 2) = k + (N + 1) :=
    ⟨16 * (b.length + 2 * s.resp.buf.length + 2) - k - 1, by omega⟩
  rw [hN, responseLoop_rounds _ r1]
  exact responseLoop_some (by omega) h2

theorem _root_.Spec.NextStatusLine.status {s : Conn} {t : Tx} {evs : List Event} (h : NextStatusLine s t evs) :
    s.resp.status = .new ∨ s.resp.status = .open ∨ s.resp.status = .data := by
  cases h with
  | between h => exact h.status
  | waiting h => exact .inr (.inr h.status)

theorem _root_.Spec.NextStatusLine.buf {s : Conn} {t : Tx} {evs : List Event} (h : NextStatusLine s t evs) : s.resp.buf = [] ∧ s.resp.header = none := by
  cases h with
  | between h => exact ⟨h.buf, h.header⟩
  | waiting h => exact ⟨h.buf, h.header⟩

theorem _root_.Spec.NextStatusLine.notBlocked {s : Conn} {t : Tx} {evs : List Event} (h : NextStatusLine s t evs) : s.responseDataOtherAtTxEnd = false := by
  cases h with
  | between h => exact h.notBlocked
  | waiting h => exact h.notBlocked

/-- The status line is awaited, at once or after one round. -/
theorem _root_.Spec.NextStatusLine.start {e : Env} (hcb : CallbacksOK e) {s : Conn} {t : Tx} {evs : List Event} (h : NextStatusLine s t evs)
    (hs : Txs.Sorted s.txs.map) (hg : s.txs.get s.txs.response = some t) (ha : Asked t) {b : Bytes} (hb : b ≠ []) :
    ∃ k h' t', Rounds (responseStep e) k (responseFed b s) (rp (responseFed b s) h' t' evs (win [] b 0)) ∧
      LineReady (responseFed b s) t h' t' := by
  cases h with
  | between h hu =>
    obtain ⟨u1, u2, u3, u4, u5⟩ := hu.fields
    have h1 : BetweenResponses (responseFed b s) := ⟨h.state, h.buf, h.header, h.receiver, h.status, h.notBlocked⟩
    have r1 := answer_idle hcb (s := responseFed b s) h1 hg ha.started ha.notProtocol09 (done := []) (rest := b) (q := 0) rfl hb
    exact ⟨1, _, _, .one r1, ⟨rfl, rfl⟩, h.buf, h.header, rfl, rfl, u1, u2, u3, u4, congrArg Tx.responseHeaderParser hu⟩
  | waiting h =>
    refine ⟨0, (responseFed b s).resp, t, ?_, h.state, h.buf, h.header, rfl, rfl, h.noHeaders, h.noRepetitions, h.noLength, h.noBody, h.parser⟩
    have := Ans.rp_self (s := responseFed b s) (t := t) hs hg (win [] b 0) rfl
    rw [this]
    exact .zero _

/-- The data ends where a status line is awaited: the header data collected so far is handed out. -/
theorem pause_received {e : Env} (hcb : CallbacksOK e) (s : Conn) (h : Half) (t : Tx) (evs : List Event) (d blk : Bytes)
    (hst : h.state = .line) (ha : Alive h) (hb : h.buf = []) (hh : h.header = none) (hr : h.receiver = some .responseHeaderData) :
    responseStep e (rp s h t evs (win (d ++ blk) [] d.length)) = (.ok (some .data),
      rp s { h with buf := [], bytesConsumed := (d ++ blk).length, status := .data } t
        (evs ++ [.data .responseHeaderData s.txs.response (.ofBytes blk)]) (win (d ++ blk) [] (d ++ blk).length)) := by
  have h1 := Ans.rp_send hcb s { h with buf := [], bytesConsumed := (d ++ blk).length } t evs d blk [] .responseHeaderData hr
  refine Ans.rp_pause s { h with buf := [], bytesConsumed := (d ++ blk).length } t evs _ (win (d ++ blk) [] d.length) _
    (.inr rfl) (by rfl) ?_ h1
  rw [hps (st := .line) hst]
  show responseLine e _ = _
  unfold responseLine
  rw [rp_state_bind, rp_input, win_asSlice, Ans.takeTillEol_none (by simp)]
  dsimp only
  rw [rp_resp, if_neg ha.2, Ans.rp_absentLf _ _ _ _ _ _ _ (by
    unfold Half.buffered
    rw [hb, hh]
    simp), hb]
  simp

/-- One call with interim responses only. -/
theorem call_interims {e : Env} (hcb : CallbacksOK e) {s : Conn} {t : Tx} {start : List Event} (hp : NextStatusLine s t start)
    (hs : Txs.Sorted s.txs.map) (hg : s.txs.get s.txs.response = some t) (hx : t.index = s.txs.response) (ha : Asked t)
    (is : List Response) (hne : is ≠ []) (hi : ∀ i ∈ is, i.Interim ∧ i.line.length + 2 ≤ e.cfg.fieldLimit)
    (hf : ∀ i ∈ is.dropLast, i.headers ≠ []) :
    ∃ s' t', responseData e (.ofBytes (is.flatMap Response.render)) s = (.ok (some .data), s') ∧ AwaitsResponse s' t' ∧
      requestSide t' = requestSide t ∧ s'.trace = s.trace ++ (start ++ interimCallbacks s.txs.response is) ∧
      s'.txs.response = s.txs.response ∧ Txs.Sorted s'.txs.map ∧ (∀ j, j ≠ s.txs.response → s'.txs.get j = s.txs.get j) ∧
      s'.txs.request = s.txs.request ∧ s'.req = s.req := by
  have hst := hp.status
  have hst' : s.resp.status ≠ .stop ∧ s.resp.status ≠ .error ∧ s.resp.status ≠ .tunnel ∧ s.resp.status ≠ .closed := by
    rcases hst with h | h | h <;> rw [h] <;> decide
  generalize hb0 : is.flatMap Response.render = b
  have hbytes : b ≠ [] := by
    cases is with
    | nil => exact absurd rfl hne
    | cons r rs =>
      obtain ⟨cs, hc⟩ := response_cons (hi r (by simp)).1.head
      rw [← hb0]
      simp [Response.render, hc]
  obtain ⟨k1, h1, t1, r1, hl1⟩ := hp.start (e := e) hcb hs hg ha hbytes
  obtain ⟨k2, h2, t2, q2, r2, hl2, -, hlast⟩ := interims_many hcb (responseFed b s) t ha.notConnect hx ⟨hst'.2.2.1, hst'.2.2.2⟩ []
    (fun c hc => by cases hc) is hi hf (fun _ _ _ => rfl) h1 t1 start [] 0 hl1
  rw [List.append_nil, List.nil_append, hb0] at r2
  obtain ⟨i, hil⟩ : ∃ i, is.getLast? = some i := by
    cases hq : is.getLast? with
    | none => exact absurd (List.getLast?_eq_none_iff.1 hq) hne
    | some i => exact ⟨i, rfl⟩
  obtain ⟨d, hd, hq2, hrc2, hseen, hpr⟩ := hlast i (by rw [hil]; rfl)
  rw [List.nil_append, hb0] at hd
  subst hq2
  have r2 : Rounds (responseStep e) k2 (rp (responseFed b s) h1 t1 start (win [] b 0))
      (rp (responseFed b s) h2 t2 (start ++ is.map fun _ => .tx .responseLine s.txs.response)
        (win (d ++ renderBlock i.headers) [] d.length)) := by
    rw [← hd]
    exact r2
  have hal2 : Alive h2 := by unfold Alive; rw [hl2.status]; exact ⟨hst'.2.2.1, hst'.2.2.2⟩
  have r3 := pause_received (e := e) hcb (responseFed b s) h2 t2 (start ++ is.map fun _ => .tx .responseLine s.txs.response) d
    (renderBlock i.headers) hl2.state.1 hal2 hl2.buf hl2.header hrc2
  have hcall := call_rounds hbytes hst' hp.buf.1 hp.buf.2 (r1.append r2) r3
  refine ⟨_, t2, hcall, ?_, hl2.same, ?_, rfl, Txs.sorted_put _ _ _ hs, ?_, rfl, rfl⟩
  · exact ⟨rp_get _ _ _ _ _, hl2.state, rfl, hl2.header, rfl, hp.notBlocked, hseen, hl2.noHeaders, hl2.noRepetitions, hl2.noLength,
      hl2.noBody, hpr, hl2.parser⟩
  · show s.trace ++ _ = _
    unfold interimCallbacks
    rw [hil]
    simp [responseFed]
  · intro j hj
    exact (Txs.get_set _ _ _ _).trans (if_neg hj)

/-- One call with interim responses, if any, and the final one. -/
theorem call_final {e : Env} (hcb : CallbacksOK e) {s : Conn} {t : Tx} {start : List Event} (hp : NextStatusLine s t start)
    (hs : Txs.Sorted s.txs.map) (hg : s.txs.get s.txs.response = some t) (hx : t.index = s.txs.response) {r : Response}
    (ha : AnswerableNow s t r)
    (is : List Response) (hi : ∀ i ∈ is, i.Interim ∧ i.line.length + 2 ≤ e.cfg.fieldLimit) (hf : ∀ i ∈ is, i.headers ≠ [])
    (hlim : r.line.length + 2 ≤ e.cfg.fieldLimit) :
    ∃ s', responseData e (.ofBytes (is.flatMap Response.render ++ r.render)) s = (.ok (some .data), s') ∧
      s'.trace = s.trace ++ (start ++ (is.map (fun _ => .tx .responseLine s.txs.response) ++ (r.callbacks s.txs.response).tail)) ∧
      (if e.cfg.txAutoDestroy then s'.txs.get s.txs.response = none
        else ∃ t', s'.txs.get s.txs.response = some t' ∧ RecordsResponse t' r ∧ requestSide t' = requestSide t) ∧
      s'.txs.response = s.txs.response + 1 ∧ BetweenResponses s' ∧
      (∀ j, (j < s.txs.response ∨ s.txs.response + 1 < j ∨ (j = s.txs.response + 1 ∧ (s.txs.get j).isSome)) →
        s'.txs.get j = s.txs.get j) ∧
      s'.txs.request = s.txs.request ∧ s'.req = s.req := by
  have hst := hp.status
  have hst' : s.resp.status ≠ .stop ∧ s.resp.status ≠ .error ∧ s.resp.status ≠ .tunnel ∧ s.resp.status ≠ .closed ∧
      s.resp.status ≠ .dataOther := by
    rcases hst with h | h | h <;> rw [h] <;> decide
  obtain ⟨cs, hc⟩ := response_cons ha.response.head
  have hhead : r.render.head? = some 72 := by simp [Response.render, hc]
  have hrne : r.render ≠ [] := by intro h; rw [h] at hhead; cases hhead
  have hasked : Asked t := ⟨by rw [ha.complete]; decide, ha.notConnect, ha.notProtocol09⟩
  have hby : ∀ b, AnswerableNow (responseFed b s) (requestSide t) r :=
    fun _ => ⟨ha.complete, ha.notConnect, ha.notProtocol09, ha.notRefused, ha.response⟩
  generalize hb0 : is.flatMap Response.render ++ r.render = b
  have hbytes : b ≠ [] := by
    rw [← hb0]
    intro h
    exact hrne (List.append_eq_nil_iff.1 h).2
  obtain ⟨k1, h1, t1, r1, hl1⟩ := hp.start (e := e) hcb hs hg hasked hbytes
  obtain ⟨k2, h2, t2, q2, r2, hl2, -, -⟩ := interims_many hcb (responseFed b s) t ha.notConnect hx ⟨hst'.2.2.1, hst'.2.2.2.1⟩ r.render
    (fun c hc => by rw [hhead] at hc; cases hc; decide) is hi (fun i h => hf i (List.dropLast_subset _ h))
    (fun i h h0 => absurd h0 (hf i (List.mem_of_getLast? h))) h1 t1 start [] 0 hl1
  rw [List.nil_append, hb0] at r2
  obtain ⟨k3, h3, t3, q3, r3, hst3, hbuf3, hhdr3, hrc3, hstat3, hrec3, hsame3⟩ := final_from hcb (responseFed b s) (requestSide t) (hby b) h2 t2
    ⟨hl2.state, hl2.buf, hl2.header, hl2.status, hl2.same, hl2.noHeaders, hl2.noRepetitions, hl2.noLength, hl2.noBody, hl2.parser⟩ hx
    ⟨hst'.2.2.1, hst'.2.2.2.1, hst'.2.2.2.2⟩ hp.notBlocked hlim
    (start ++ is.map fun _ => .tx .responseLine (responseFed b s).txs.response) (is.flatMap Response.render) q2
  have hb3 : BetweenResponses (answered e.cfg.txAutoDestroy (responseFed b s) h3 t3
      (start ++ (is.map fun _ => .tx .responseLine (responseFed b s).txs.response) ++ (r.callbacks (responseFed b s).txs.response).tail)
      (win (is.flatMap Response.render ++ r.render) [] q3)) :=
    ⟨hst3, hbuf3, hhdr3, hrc3, by show h3.status = _ ∨ h3.status = _ ∨ h3.status = _; rw [hstat3]; exact hst, hp.notBlocked⟩
  obtain ⟨s4, h4, ha4, -⟩ := answers_idle (e := e) hb3 rfl
  have hcall := call_rounds hbytes ⟨hst'.1, hst'.2.1, hst'.2.2.1, hst'.2.2.2.1⟩ hp.buf.1 hp.buf.2 (r1.append (r2.append r3)) h4
  have hget : ∀ j, (answeredTxs e.cfg.txAutoDestroy s.txs t3).get j =
      if j = s.txs.response then (if e.cfg.txAutoDestroy then none else some t3) else s.txs.get j := by
    intro j
    unfold answeredTxs
    cases e.cfg.txAutoDestroy with
    | true =>
      show ((s.txs.set s.txs.response t3).remove s.txs.response).get j = _
      rw [Txs.get_remove, Txs.get_set]
      split
      · rfl
      · rfl
    | false =>
      show (s.txs.set s.txs.response t3).get j = _
      rw [Txs.get_set]
      rfl
  have hresp : s4.txs.response = s.txs.response + 1 := ha4.response
  have hothers : ∀ j, (j < s.txs.response + 1 ∨ s.txs.response + 1 < j ∨ (j = s.txs.response + 1 ∧ (s.txs.get j).isSome)) →
      s4.txs.get j = (answeredTxs e.cfg.txAutoDestroy s.txs t3).get j := by
    intro j hj
    refine ha4.others j (hj.imp_right (Or.imp_right fun h => ⟨h.1, ?_⟩))
    show ((answeredTxs e.cfg.txAutoDestroy s.txs t3).get j).isSome
    rw [hget, if_neg (by omega)]
    exact h.2
  refine ⟨s4, hcall, ?_, ?_, hresp, ha4.between, ?_, ?_, ha4.req⟩
  · rw [ha4.trace]
    show s.trace ++ _ ++ [] = _
    simp
    rfl
  · rw [hothers _ (by omega), hget, if_pos rfl]
    split
    · rfl
    · exact ⟨t3, rfl, hrec3, hsame3⟩
  · intro j hj
    rw [hothers _ (hj.imp_left (by omega)), hget, if_neg (by omega)]
  · rw [ha4.request]
    show (answeredTxs e.cfg.txAutoDestroy s.txs _).request = _
    unfold answeredTxs
    cases e.cfg.txAutoDestroy <;> rfl

end Model

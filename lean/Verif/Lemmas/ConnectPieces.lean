/-
The response that grants a tunnel, in pieces.
-/
import Verif.Lemmas.ConnectResp
import Verif.Lemmas.InterimPieces

namespace Model

open M Spec Props

namespace Verdict

open Ans (resP)

/-- What a call with a piece of the response leaves alone. -/
structure Keep (s0 s : Conn) : Prop where
  response : s.txs.response = s0.txs.response
  request : s.txs.request = s0.txs.request
  req : s.req = s0.req
  notBlocked : s.responseDataOtherAtTxEnd = false
  sorted : Txs.Sorted s.txs.map
  others : ∀ j, j ≠ s0.txs.response → s.txs.get j = s0.txs.get j

/-- The response has been read, by a parser that was in state `s0` before it. -/
structure Over (s0 : Conn) (t0 : Tx) (a : Response) (s : Conn) : Prop where
  records : ∃ t, Negotiates s t ∧ RecordsVerdict t a ∧ requestSide t = requestSide t0
  between : BetweenResponses s
  response : s.txs.response = s0.txs.response + 1
  request : s.txs.request = s0.txs.request
  req : s.req = s0.req
  earlier : ∀ j, j < s0.txs.request → s.txs.get j = s0.txs.get j

/-- In the header block, of which `b` is to come. -/
structure InHead (e : Env) (t0 : Tx) (a : Response) (b : Bytes) (h : Half) (t : Tx) : Prop where
  hat : At h .headers [] h.header (some .responseHeaderData)
  read : LineRead t0 a t
  progress : t.responseProgress = .headers
  noBody : t.responseEntityLen = 0
  parser : t.responseHeaderParser = resP
  limit : (h.header.getD []).length ≤ e.cfg.fieldLimit
  lines : ∃ js ls, a.headers = js ++ ls ∧ h.header.getD [] ++ b = renderBlock ls ∧ Ans.Tabled t js

/-- In the status line, of which `p` has been read, between two calls; `start` is to be run first. -/
structure LineStage (s0 : Conn) (t0 : Tx) (start : List Event) (p : Bytes) (s : Conn) : Prop where
  keep : Keep s0 s
  here : start = [.tx .responseStart s0.txs.response] ∧ p = [] ∧ BetweenResponses s ∧ s.txs.get s.txs.response = some t0 ∨
    start = [] ∧ s.resp.status = .data ∧ At s.resp .line p none none ∧
      s.txs.get s.txs.response = some { t0 with responseProgress := .line }

/-- In the header block, between two calls. -/
structure HeadStage (e : Env) (s0 : Conn) (t0 : Tx) (a : Response) (b : Bytes) (s : Conn) : Prop where
  keep : Keep s0 s
  here : ∃ t, s.txs.get s.txs.response = some t ∧ InHead e t0 a b s.resp t
  status : s.resp.status = .data

/-- The response fits the request. -/
structure Fits (e : Env) (s0 : Conn) (t0 : Tx) (a : Response) : Prop where
  callbacks : CallbacksOK e
  negotiates : Negotiates s0 t0
  same : s0.txs.response = s0.txs.request
  index : t0.index = s0.txs.response
  connect : t0.requestMethodNumber = .connect
  progress : t0.requestProgress = .headers
  notProtocol09 : t0.isProtocol09 = false
  unanswered : Unanswered t0
  response : a.WellFormed true
  code : a.code ≤ 299
  line : a.line.length + 2 ≤ e.cfg.fieldLimit
  fields : ∀ h ∈ a.headers, h.render.length + 1 ≤ e.cfg.fieldLimit

theorem Keep.fed {s0 s : Conn} (h : Keep s0 s) (b : Bytes) : Keep s0 (responseFed b s) :=
  ⟨h.response, h.request, h.req, h.notBlocked, h.sorted, h.others⟩

theorem Keep.rp {s0 s : Conn} (k : Keep s0 s) (h : Half) (t : Tx) (evs : List Event) (inp : PData) : Keep s0 (rp s h t evs inp) :=
  ⟨k.response, k.request, k.req, k.notBlocked, Txs.sorted_put _ _ _ k.sorted, fun j hj =>
    (Txs.get_set _ _ _ _).trans ((if_neg (by rw [k.response]; exact hj)).trans (k.others j hj))⟩

/-- One call. -/
theorem call_steps {e : Env} {s s1 s2 : Conn} {b : Bytes} {k : Nat} {st : StreamState} (hb : b ≠ [])
    (hst : s.resp.status ≠ .stop ∧ s.resp.status ≠ .error ∧ s.resp.status ≠ .tunnel ∧ s.resp.status ≠ .closed)
    (hbuf : s.resp.buffered ≤ e.cfg.fieldLimit) (r1 : Rounds (responseStep e) k (responseFed b s) s1)
    (h2 : responseStep e s1 = (.ok (some st), s2)) : responseData e (.ofBytes b) s = (.ok (some st), s2) := by
  rw [responseData_data hb hst.1 hst.2.1 hst.2.2.1]
  have hok : RespOK e (responseFed b s) := ⟨toPData_wf (.data b), rfl, Nat.zero_le _, fun h => absurd h hst.2.2.2, hbuf⟩
  have hk : k < 16 * (b.length + 2 * s.resp.buf.length + 2) := by
    have := (response_rounds e r1 hok).2
    have := respMeasure_lt_rounds (responseFed b s)
    have hx : responseRounds (responseFed b s) = 16 * (b.length + 2 * s.resp.buf.length + 2) := by
      unfold responseRounds
      rw [show (responseFed b s).input.len = b.length from toPData_len (.data b)]
      rfl
    omega
  obtain ⟨N, hN⟩ : ∃ N, 16 * (b.length + 2 * s.resp.buf.length + 2) = k + (N + 1) :=
    ⟨16 * (b.length + 2 * s.resp.buf.length + 2) - k - 1, by omega⟩
  rw [hN, responseLoop_rounds _ r1]
  exact responseLoop_some (by omega) h2

/-- The call ends in the header block. -/
theorem head_cut {e : Env} {s0 : Conn} {t0 : Tx} {a : Response} (F : Fits e s0 t0 a) (s : Conn) {h : Half} {t : Tx} (evs : List Event)
    (done x b : Bytes) (w : InHead e t0 a (x ++ b) h t) (ha : Alive h) (hb : b ≠ []) :
    ∃ h' t' inp, responseStep e (rp s h t evs (win done x done.length)) = (.ok (some .data),
        rp s h' t' (evs ++ [.data .responseHeaderData s.txs.response (.ofBytes x)]) inp) ∧ InHead e t0 a b h' t' ∧ h'.status = .data := by
  obtain ⟨js, ls, hjl, hi, htab⟩ := w.lines
  obtain ⟨js', ms, rest', h1, -, h3, h4, h5⟩ := Ans.pause_headers F.callbacks s h t evs done x b _ w.hat.state ha w.hat.receiver
    w.parser w.hat.buf ls (fun y hy => F.response.head.headers y (by rw [hjl]; simp [hy]))
    (fun y hy => F.fields y (by rw [hjl]; simp [hy])) (by have := F.line; omega) (by rw [List.append_assoc]; exact hi) hb
  exact ⟨_, _, _, h5, ⟨⟨w.hat.state, w.hat.previous, w.hat.buf, rfl, w.hat.receiver⟩,
    ⟨w.read.same, w.read.line, w.read.protocol, w.read.protocolNumber, w.read.status, w.read.statusNumber, w.read.message, w.read.progress⟩,
    w.progress, w.noBody, w.parser, h4, js ++ js', ms, by rw [hjl, h1, List.append_assoc], h3, htab.add js'⟩, rfl⟩

/-- What is left behind by the response, when the parser has gone on to the next one. -/
theorem negotiates_over {s0 s s' : Conn} {t0 t' : Tx} {auto : Bool} {h : Half} {evs : List Event} {inp : PData}
    (hn : Negotiates s0 t0) (hk : s0.txs.response = s0.txs.request) (h1 : s.txs.response = s0.txs.response)
    (h2 : s.txs.request = s0.txs.request) (h3 : s.req = s0.req) (h4 : ∀ j, j ≠ s0.txs.response → s.txs.get j = s0.txs.get j)
    (ha : AnswersDone auto (answered false s h t' evs inp) s' []) :
    Negotiates s' t' ∧ s'.txs.response = s.txs.response + 1 ∧ s'.txs.request = s.txs.request ∧ s'.req = s.req ∧
      ∀ j, j < s.txs.request → s'.txs.get j = s.txs.get j := by
  have hg : Negotiates { s with txs := s.txs.set s.txs.response t' } t' := by
    refine ⟨by exact h3 ▸ hn.state, by exact h3 ▸ hn.buf, by exact h3 ▸ hn.header, by exact h3 ▸ hn.receiver, by exact h3 ▸ hn.status, ?_, ?_, ?_⟩
    · refine (Txs.get_set _ _ _ _).trans (if_pos ?_)
      show s.txs.request = s.txs.response
      rw [h1, h2, hk]
    · have : (s.txs.set s.txs.response t').get (s.txs.request + 1) = s0.txs.get (s0.txs.request + 1) :=
        (Txs.get_set _ _ _ _).trans ((if_neg (by omega)).trans (by rw [h4 _ (by omega), h2]))
      show (s.txs.set s.txs.response t').get (s.txs.request + 1) = none ∨ (s.txs.set s.txs.response t').get (s.txs.request + 1) = some { index := s.txs.request + 1 }
      rw [this, h2]
      exact hn.next
    · intro j (hj : s.txs.request + 1 < j)
      exact (Txs.get_set _ _ _ _).trans ((if_neg (by omega)).trans ((h4 j (by omega)).trans (hn.beyond j (by omega))))
  have hget : ∀ j, j ≠ s.txs.response → (s.txs.set s.txs.response t').get j = s.txs.get j := fun j hj =>
    (Txs.get_set _ _ _ _).trans (if_neg hj)
  have hput : answeredTxs false (s.txs.set s.txs.response t') t' = answeredTxs false s.txs t' := by
    show ({ (s.txs.set s.txs.response t').set s.txs.response t' with response := _ } : Txs) = _
    unfold Txs.set
    rw [Txs.put_put]
    rfl
  have ha' : AnswersDone auto (answered false { s with txs := s.txs.set s.txs.response t' } h t' evs inp) s' [] := by
    have : answered false { s with txs := s.txs.set s.txs.response t' } h t' evs inp = answered false s h t' evs inp := by
      unfold answered
      rw [show ({ s with txs := s.txs.set s.txs.response t' } : Conn).txs = s.txs.set s.txs.response t' from rfl, hput]
    rw [this]
    exact ha
  obtain ⟨n1, n2, n3, n4, n5⟩ := negotiates_answered (f := id) (s := { s with txs := s.txs.set s.txs.response t' })
    (s1 := { s with txs := s.txs.set s.txs.response t' }) hg (by show s.txs.response = s.txs.request; rw [h1, h2, hk])
    ⟨rfl, rfl, rfl, rfl, hg.status⟩ rfl rfl ha'
  refine ⟨n1, n2, n3, n4, fun j hj => (n5 j hj).trans (hget j ?_)⟩
  omega

/-- The call ends with the header block. -/
theorem head_end {e : Env} {s0 : Conn} {t0 : Tx} {a : Response} (F : Fits e s0 t0 a) (s : Conn) {h : Half} {t : Tx} (evs : List Event)
    (done x : Bytes) (w : InHead e t0 a x h t) (hst : h.status = .new ∨ h.status = .open ∨ h.status = .data) (k : Keep s0 s)
    : ∃ n s1 s2, Rounds (responseStep e) n (rp s h t evs (win done x done.length)) s1 ∧
      responseStep e s1 = (.ok (some .data), s2) ∧ Over s0 t0 a s2 ∧
      s2.trace = s.trace ++ (evs ++ [.data .responseHeaderData s.txs.response (.ofBytes x), .tx .responseHeaders s.txs.response,
        .tx .responseComplete s.txs.response]) := by
  have hal : Alive h := by unfold Alive; rcases hst with h | h | h <;> rw [h] <;> decide
  have hno : h.status ≠ .dataOther := by rcases hst with h | h | h <;> rw [h] <;> decide
  obtain ⟨js, ls, hjl, hi, htab⟩ := w.lines
  have r1 := Ans.headers_from (e := e) s h t evs done x [] done.length w.hat.state ls
    (fun y hy => F.response.head.headers y (by rw [hjl]; simp [hy])) hi hal w.progress ⟨fun _ => rfl, fun c hc => by cases hc⟩
  rw [List.append_nil] at r1
  have htab2 := htab.add ls
  rw [← hjl] at htab2
  have hstored := htab2.stored F.response.head.headers
  clear htab2
  have hmeth : t.requestMethodNumber = .connect := w.read.method.trans F.connect
  have hprog : t.requestProgress ≠ .complete := by rw [w.read.requestProgress, F.progress]; decide
  obtain ⟨h1, hh1, a1⟩ : ∃ h1, h1 = ({ h with
          header := none, bytesConsumed := (done ++ x).length
          state := .bodyDetermine, statePrevious := .bodyDetermine } : Half) ∧
      (h1.state = .bodyDetermine ∧ h1.receiver = some .responseHeaderData ∧ h1.buf = [] ∧ h1.header = none ∧ h1.status = h.status) :=
    ⟨_, rfl, rfl, w.hat.receiver, w.hat.buf, rfl, rfl⟩
  rw [← hh1] at r1
  generalize ht1 : ({ t with
          responseHeaders := 
            ((fieldsOf ls).foldl (fun s h => s.1.store s.2 h) (t.responseHeaders, t.responseHeaderRepetitions)).1
          responseHeaderRepetitions :=
            ((fieldsOf ls).foldl (fun s h => s.1.store s.2 h) (t.responseHeaders, t.responseHeaderRepetitions)).2 } : Tx) = t1 at r1 hstored
  have hr1 : LineRead t0 a t1 := by
    rw [← ht1]
    exact ⟨w.read.same, w.read.line, w.read.protocol, w.read.protocolNumber, w.read.status, w.read.statusNumber, w.read.message, w.read.progress⟩
  have hm1 : t1.requestMethodNumber = .connect := by rw [← ht1]; exact hmeth
  have hp1 : t1.requestProgress ≠ .complete := by rw [← ht1]; exact hprog
  have hl1 : t1.responseEntityLen = 0 := by rw [← ht1]; exact w.noBody
  clear ht1 hh1
  obtain ⟨b1, b2, b3, b4, b5⟩ := a1
  have hal1 : Alive h1 := by unfold Alive; rw [b5]; exact hal
  have r2 := accept_determine F.callbacks s h1 t1 evs done x [] F.response b1 hal1 b2 hstored hm1 hr1.statusNumber F.code
  obtain ⟨ml, h3⟩ := complete_waiting F.callbacks s
    { h1 with state := .finalize, statePrevious := .finalize, receiver := none }
    { t1 with responseContentEncoding := .none, responseContentEncodingProcessing := .none }
    (evs ++ [.data .responseHeaderData s.txs.response (.ofBytes x), .tx .responseHeaders s.txs.response])
    (win (done ++ x) [] (done ++ x).length)
    rfl (by show h1.status ≠ _; rw [b5]; exact hno) k.notBlocked
    (by exact hp1) (by exact hr1.progress) rfl (by show t1.responseEntityLen < _; omega)
  have r3 := answered_round (e := e) _ _ _ _ _ rfl (finalize_end rfl (by exact hal1) h3) hal1.1 (by simp)
  have key := (fun {h t evs done q}
      (_ : responseStep e _ = (.ok none, answered false s h t evs (win done [] q))) =>
      answers_idle (e := e) (s := answered false s h t evs (win done [] q)) (done := done) (q := q)) r3
  obtain ⟨s4, h4, ha4, -⟩ := key
    (by exact ⟨rfl, b3, b4, rfl, by show h1.status = _ ∨ h1.status = _ ∨ h1.status = _; rw [b5]; exact hst,
      k.notBlocked⟩) (by exact rfl)
  obtain ⟨t', ht', n1, n2, n3, n4, n5⟩ : ∃ t', t' = ({ t1 with responseContentEncoding := .none, responseContentEncodingProcessing := .none
                                                               responseMessageLen := ml, responseProgress := .complete } : Tx) ∧
      Negotiates s4 t' ∧ s4.txs.response = s.txs.response + 1 ∧ s4.txs.request = s.txs.request ∧ s4.req = s.req ∧
      ∀ j, j < s.txs.request → s4.txs.get j = s.txs.get j := by
    refine ⟨_, rfl, ?_⟩
    exact negotiates_over F.negotiates F.same k.response k.request k.req k.others ha4
  refine ⟨_, _, s4, .next r1 (.next r2 (.next r3 (.zero _))), h4, ⟨⟨t', n1, ?_, ?_⟩, ha4.between, by rw [n2, k.response], by rw [n3, k.request],
    n4.trans k.req, fun j hj => ?_⟩, ?_⟩
  · obtain ⟨p, hp⟩ := F.response.protocol
    rw [ht']
    refine ⟨hr1.line, hr1.protocol, ?_, hr1.status, hr1.statusNumber, hr1.message, hstored, hl1, rfl⟩
    show (a.protocol, t1.responseProtocolNumber) ∈ _
    rw [hr1.protocolNumber, (protocol_facts _ hp).1]
    exact hp
  · rw [ht']; exact hr1.same
  · rw [n5 j (by rw [k.request]; exact hj), k.others j (by have := F.same; omega)]
  · rw [ha4.trace]
    show s.trace ++ _ ++ [] = _
    simp

/-- The status line goes on in this call. -/
theorem LineStage.begins {e : Env} {s0 : Conn} {t0 : Tx} {a : Response} (F : Fits e s0 t0 a) {start : List Event} {p b : Bytes} {s : Conn}
    (h : LineStage s0 t0 start p s) (hb : b ≠ []) :
    ∃ n h1, Rounds (responseStep e) n (responseFed b s)
        (rp (responseFed b s) h1 { t0 with responseProgress := .line } start (win [] b 0)) ∧
      At h1 .line p none none ∧ (h1.status = .new ∨ h1.status = .open ∨ h1.status = .data) := by
  rcases h.here with ⟨rfl, rfl, hbt, hg⟩ | ⟨rfl, hst, hat, hg⟩
  · have r1 := Ans.idle_from (e := e) (s := responseFed b s) F.callbacks hbt.state
      (by show s.resp.status ≠ _; rcases hbt.status with h | h | h <;> rw [h] <;> decide) hg
      (by rw [F.progress]; decide) F.notProtocol09 (done := []) (rest := b) (q := 0) rfl hb
    rw [show (responseFed b s).txs.response = s0.txs.response from h.keep.response] at r1
    exact ⟨1, _, .next r1 (.zero _), ⟨by exact rfl, by exact rfl, by exact hbt.buf, by exact hbt.header, by exact hbt.receiver⟩, by exact hbt.status⟩
  · have hself := Ans.rp_self (s := responseFed b s) (t := { t0 with responseProgress := .line }) h.keep.sorted hg (win [] b 0) rfl
    exact ⟨0, (responseFed b s).resp, by rw [hself]; exact .zero _, ⟨hat.state, hat.previous, hat.buf, hat.header, hat.receiver⟩, .inr (.inr hst)⟩

theorem LineStage.live {s0 : Conn} {t0 : Tx} {start : List Event} {p : Bytes} {s : Conn} (h : LineStage s0 t0 start p s) :
    s.resp.status ≠ .stop ∧ s.resp.status ≠ .error ∧ s.resp.status ≠ .tunnel ∧ s.resp.status ≠ .closed := by
  rcases h.here with ⟨-, -, hbt, -⟩ | ⟨-, hst, -, -⟩
  · rcases hbt.status with h | h | h <;> rw [h] <;> decide
  · rw [hst]; decide

theorem LineStage.buffered {s0 : Conn} {t0 : Tx} {start : List Event} {p : Bytes} {s : Conn} (h : LineStage s0 t0 start p s) :
    s.resp.buffered = p.length := by
  unfold Half.buffered
  rcases h.here with ⟨-, rfl, hbt, -⟩ | ⟨-, -, hat, -⟩
  · rw [hbt.buf, hbt.header]; rfl
  · rw [hat.buf, hat.header]; rfl

/-- A call with some of the status line. -/
theorem line_call {e : Env} {s0 : Conn} {t0 : Tx} {a : Response} (F : Fits e s0 t0 a) {start : List Event} {p x rem : Bytes} {s : Conn}
    (h : LineStage s0 t0 start p s) (hx : x ≠ []) (hp : p ++ x ++ rem = a.line) :
    ∃ s', responseData e (.ofBytes x) s = (.ok (some .data), s') ∧ LineStage s0 t0 [] (p ++ x) s' ∧ s'.trace = s.trace ++ start := by
  obtain ⟨n, h1, r1, hat, hst⟩ := h.begins F hx
  have hl := congrArg List.length hp
  have hlim := F.line
  simp only [List.length_append] at hl
  have hal : Alive h1 := by unfold Alive; rcases hst with h | h | h <;> rw [h] <;> decide
  obtain ⟨inp, h2⟩ := Ans.pause_line (e := e) (responseFed x s) h1 { t0 with responseProgress := .line } start [] x 0 hat.state hal hat.receiver
    (fun c hc => response_noEol F.response.head c (by rw [← hp]; simp [hc])) (by
      unfold Half.buffered
      rw [hat.buf, hat.header]
      simp
      omega)
  refine ⟨_, call_steps hx h.live (by rw [h.buffered]; omega) r1 h2, ⟨(h.keep.fed x).rp _ _ _ _, .inr ⟨rfl, rfl, ⟨hat.state, hat.previous, ?_, hat.header,
    hat.receiver⟩, rp_get _ _ _ _ _⟩⟩, rfl⟩
  show h1.buf ++ x = _
  rw [hat.buf]

/-- The call with the end of the status line. -/
theorem line_end {e : Env} {s0 : Conn} {t0 : Tx} {a : Response} (F : Fits e s0 t0 a) {start : List Event} {p x y b : Bytes} {s : Conn}
    (h : LineStage s0 t0 start p s) (hp : p ++ x = a.line) (hy : y ++ b = renderBlock a.headers) :
    ∃ s', responseData e (.ofBytes (x ++ [13, 10] ++ y)) s = (.ok (some .data), s') ∧
      s'.trace = s.trace ++ (start ++ [.tx .responseLine s0.txs.response, .data .responseHeaderData s0.txs.response (.ofBytes y)] ++
        (if b = [] then [.tx .responseHeaders s0.txs.response, .tx .responseComplete s0.txs.response] else [])) ∧
      (if b = [] then Over s0 t0 a s' else HeadStage e s0 t0 a b s') := by
  have hne : x ++ [13, 10] ++ y ≠ [] := by simp
  obtain ⟨n, h1, r1, hat, hst⟩ := h.begins F hne
  have hl := congrArg List.length hp
  have hlim := F.line
  simp only [List.length_append] at hl
  have hal : Alive h1 := by unfold Alive; rcases hst with h | h | h <;> rw [h] <;> decide
  have hk := h.keep.fed (x ++ [13, 10] ++ y)
  have hresp : (responseFed (x ++ [13, 10] ++ y) s).txs.response = s0.txs.response := hk.response
  have r2 := Ans.line_from F.callbacks F.response (responseFed (x ++ [13, 10] ++ y) s) h1 { t0 with responseProgress := .line } start [] x y 0
    hat.state hat.previous (by rw [hat.buf]; exact hp) hat.header hal F.line (by rw [hresp]; exact F.index)
  have rr := r1.append (.next r2 (.zero _))
  obtain ⟨u1, u2, u3, u4, u5⟩ := F.unanswered.fields
  have w : InHead e t0 a (y ++ b) { h1 with
          buf := [], bytesConsumed := ([] ++ (x ++ [13, 10])).length, state := .headers, statePrevious := .headers
          receiver := some .responseHeaderData } { t0 with
          responseLine := some (a.line ++ [13, 10])
          responseProtocol := some a.protocol
          responseProtocolNumber := parseProtocol a.protocol
          responseStatus := some (Spec.render 10 a.code)
          responseStatusNumber := .valid a.code
          responseMessage := some a.message
          responseProgress := .headers } := by
    refine ⟨⟨rfl, rfl, rfl, rfl, rfl⟩, ⟨rfl, rfl, rfl, rfl, rfl, rfl, rfl, by show Progress.headers ≠ .complete; decide⟩, rfl, u4, ?_, ?_, [], a.headers, rfl, ?_, ?_⟩
    · exact congrArg Tx.responseHeaderParser F.unanswered
    · show (h1.header.getD []).length ≤ _
      rw [hat.header]
      exact Nat.zero_le _
    · show h1.header.getD [] ++ _ = _
      rw [hat.header]
      exact hy
    · show (t0.responseHeaders, t0.responseHeaderRepetitions) = ([], 0)
      rw [u1, u2]
  generalize hs1 : responseFed (x ++ [13, 10] ++ y) s = s1 at rr hk hresp
  have htr : s1.trace = s.trace := by rw [← hs1]; rfl
  by_cases hb : b = []
  · subst hb
    rw [List.append_nil] at w
    obtain ⟨m, s2, s3, r3, h3, ho, ht⟩ := head_end F s1 _ _ _ w hst hk
    rw [← hs1] at rr r3
    refine ⟨s3, call_steps hne h.live (by rw [h.buffered]; omega) (rr.append r3) h3, ?_, by rw [if_pos rfl]; exact ho⟩
    rw [ht, htr, hresp, if_pos rfl]
    simp
    exact h.keep.response
  · obtain ⟨h', t', inp, h3, hw, hs'⟩ := head_cut F s1 _ _ _ _ w (by exact hal) hb
    rw [← hs1] at rr h3
    refine ⟨_, call_steps hne h.live (by rw [h.buffered]; omega) rr h3, ?_, ?_⟩
    · rw [if_neg hb]
      show s.trace ++ _ = _
      rw [show (responseFed (x ++ [13, 10] ++ y) s).txs.response = s0.txs.response from h.keep.response]
      simp
    · rw [if_neg hb]
      exact ⟨(h.keep.fed _).rp _ _ _ _, ⟨t', rp_get _ _ _ _ _, hw⟩, hs'⟩

/-- A call with some of the header block. -/
theorem head_call {e : Env} {s0 : Conn} {t0 : Tx} {a : Response} (F : Fits e s0 t0 a) {x b : Bytes} {s : Conn}
    (h : HeadStage e s0 t0 a (x ++ b) s) (hx : x ≠ []) :
    ∃ s', responseData e (.ofBytes x) s = (.ok (some .data), s') ∧
      s'.trace = s.trace ++ (.data .responseHeaderData s0.txs.response (.ofBytes x) ::
        (if b = [] then [.tx .responseHeaders s0.txs.response, .tx .responseComplete s0.txs.response] else [])) ∧
      (if b = [] then Over s0 t0 a s' else HeadStage e s0 t0 a b s') := by
  obtain ⟨t, hg, w⟩ := h.here
  have hself := Ans.rp_self (s := responseFed x s) (t := t) h.keep.sorted hg (win [] x 0) rfl
  have w : InHead e t0 a (x ++ b) (responseFed x s).resp t :=
    ⟨⟨w.hat.state, w.hat.previous, w.hat.buf, rfl, w.hat.receiver⟩, w.read, w.progress, w.noBody, w.parser, w.limit, w.lines⟩
  have hst : (responseFed x s).resp.status = .data := h.status
  have hal : Alive (responseFed x s).resp := by unfold Alive; rw [hst]; decide
  have hlive : s.resp.status ≠ .stop ∧ s.resp.status ≠ .error ∧ s.resp.status ≠ .tunnel ∧ s.resp.status ≠ .closed := by
    rw [h.status]; decide
  have hbuf : s.resp.buffered ≤ e.cfg.fieldLimit := by
    have h1 : s.resp.buf = [] := w.hat.buf
    have h2 : (s.resp.header.getD []).length ≤ e.cfg.fieldLimit := w.limit
    unfold Half.buffered
    rw [h1]
    simpa using h2
  have hresp : (responseFed x s).txs.response = s0.txs.response := h.keep.response
  by_cases hb : b = []
  · subst hb
    rw [List.append_nil] at w
    obtain ⟨m, s2, s3, r3, h3, ho, ht⟩ := head_end F (responseFed x s) [] [] x w (.inr (.inr hst)) (h.keep.fed x)
    rw [show ([] : Bytes).length = 0 from rfl, hself] at r3
    refine ⟨s3, call_steps hx hlive hbuf r3 h3, ?_, by rw [if_pos rfl]; exact ho⟩
    rw [ht, hresp, if_pos rfl]
    rfl
  · obtain ⟨h', t', inp, h3, hw, hs'⟩ := head_cut F (responseFed x s) [] [] x b w hal hb
    rw [show ([] : Bytes).length = 0 from rfl, hself] at h3
    refine ⟨_, call_steps hx hlive hbuf (.zero _) h3, ?_, ?_⟩
    · rw [if_neg hb]
      show s.trace ++ _ = _
      rw [hresp]
      rfl
    · rw [if_neg hb]
      exact ⟨(h.keep.fed _).rp _ _ _ _, ⟨t', rp_get _ _ _ _ _, hw⟩, hs'⟩

end Verdict

end Model

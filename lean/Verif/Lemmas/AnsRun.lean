/-
What a call does whose data ends in the middle of a response, and how the next one goes on.
-/
import Verif.Lemmas.AnsBlock
import Verif.Lemmas.SegBody
import Verif.Lemmas.RespSequence

namespace Model.Ans

open M Spec Props

/-! The end of the data. -/

theorem rp_send {e : Env} (hcb : CallbacksOK e) (s : Conn) (h : Half) (t : Tx) (evs : List Event) (done a b : Bytes)
    (hk : DataHook) (hr : h.receiver = some hk) :
    responseReceiverSendData e (rp s h t evs (win (done ++ a) b done.length)) =
      (.ok (), rp s h t (evs ++ [.data hk s.txs.response (.ofBytes a)]) (win (done ++ a) b (done ++ a).length)) := by
  unfold responseReceiverSendData
  rw [rp_state_bind, rp_window_bind (g := fun i => i.callbackData.2), rp_input, rp_resp, hr, win_callback, rp_tx_bind]
  exact rp_emit _ _ _ _ _ hcb _

theorem rp_send_none {e : Env} (s : Conn) (h : Half) (t : Tx) (evs : List Event) (inp : PData) (hr : h.receiver = none) :
    responseReceiverSendData e (rp s h t evs inp) = (.ok (), rp s h t evs inp.callbackData.2) := by
  unfold responseReceiverSendData
  rw [rp_state_bind, rp_window_bind (g := fun i => i.callbackData.2), rp_resp, hr, rp_tx_bind]
  rfl

theorem rp_pause {e : Env} {s0 : Conn} (s : Conn) (h : Half) (t : Tx) (evs evs' : List Event) (inp inp' : PData) {x : Status}
    (hx : x = .data ∨ x = .dataBuffer) (hg : s0.input.isGap = false)
    (h1 : handleResponseState e s0 = (.error (.status x), rp s h t evs inp))
    (h2 : responseReceiverSendData e (rp s h t evs inp) = (.ok (), rp s h t evs' inp')) :
    responseStep e s0 = (.ok (some .data), rp s { h with status := .data } t evs' inp') := by
  rw [responseStep_rc (by rw [hg]; rfl) (M.attempt_error h1)]
  unfold responseStepTail
  rw [rp_state_bind]
  dsimp only
  unfold responseAfterStep
  rcases hx with rfl | rfl <;> dsimp only <;> rw [M.bind_ok (M.attempt_ok h2)] <;> rfl

theorem consume_all (done a : Bytes) (q : Nat) : (win done a q).consume a.length = win (done ++ a) [] q := by
  have := win_consume done a [] q
  rwa [List.append_nil] at this

theorem rp_absentLf {e : Env} (s : Conn) (h : Half) (t : Tx) (evs : List Event) (done a : Bytes) (q : Nat)
    (hl : h.buffered + a.length ≤ e.cfg.fieldLimit) :
    handleResponseAbsentLf e (rp s h t evs (win done a q)) = (.error (.status .dataBuffer),
      rp s { h with buf := h.buf ++ a, bytesConsumed := (done ++ a).length } t evs (win (done ++ a) [] q)) := by
  unfold handleResponseAbsentLf checkResponseBufferLimit
  rw [rp_state_bind, M.bind_bind, rp_state_bind, rp_resp, rp_input, win_len, if_neg (by omega), M.pure_bind_run, rp_setResp_bind,
    rp_consume_bind, win_asSlice, consume_all]
  rfl

theorem takeTillEol_none {a : Bytes} (ha : ∀ c ∈ a, c ≠ 13 ∧ c ≠ 10) : takeTillEol a = .incomplete := by
  have h1 : Nom.takeTillS (fun c => c == 10 || c == 13) a = .incomplete := by
    unfold Nom.takeTillS Nom.takeWhileS
    have : a.dropWhile (fun c : UInt8 => !(c == 10 || c == 13)) = [] := by
      have := List.dropWhile_append_of_pos (l₂ := []) (l₁ := a) (p := fun c : UInt8 => !(c == 10 || c == 13)) (by
        intro c hc
        simp [(ha c hc).1, (ha c hc).2])
      simpa using this
    rw [this]
    rfl
  unfold takeTillEol Nom.pair Nom.bind
  rw [h1]

theorem pause_line {e : Env} (s : Conn) (h : Half) (t : Tx) (evs : List Event) (done a : Bytes) (q : Nat)
    (hst : h.state = .line) (ha : Alive h) (hr : h.receiver = none) (hn : ∀ c ∈ a, c ≠ 13 ∧ c ≠ 10)
    (hl : h.buffered + a.length ≤ e.cfg.fieldLimit) :
    ∃ inp, responseStep e (rp s h t evs (win done a q)) = (.ok (some .data),
      rp s { h with buf := h.buf ++ a, bytesConsumed := (done ++ a).length, status := .data } t evs inp) := by
  refine ⟨_, rp_pause s { h with buf := h.buf ++ a, bytesConsumed := (done ++ a).length } t evs evs (win (done ++ a) [] q) _
    (.inr rfl) (by rfl) ?_ (rp_send_none _ _ _ _ _ hr)⟩
  rw [hps (st := .line) hst]
  show responseLine e _ = _
  unfold responseLine
  rw [rp_state_bind, rp_input, win_asSlice, takeTillEol_none hn]
  dsimp only
  rw [rp_resp, if_neg ha.2, rp_absentLf _ _ _ _ _ _ _ hl]

theorem pause_final {e : Env} (s : Conn) (h : Half) (t : Tx) (evs : List Event) (done a : Bytes) (q : Nat)
    (hst : h.state = .finalize) (ha : Alive h) (hr : h.receiver = none) (hn : ∀ c ∈ a, c ≠ 13 ∧ c ≠ 10) (hne : a ≠ [])
    (hl : h.buffered + a.length ≤ e.cfg.fieldLimit) :
    ∃ inp, responseStep e (rp s h t evs (win done a q)) = (.ok (some .data),
      rp s { h with buf := h.buf ++ a, bytesConsumed := (done ++ a).length, status := .data } t evs inp) := by
  refine ⟨_, rp_pause s { h with buf := h.buf ++ a, bytesConsumed := (done ++ a).length } t evs evs (win (done ++ a) [] q) _
    (.inr rfl) (by rfl) ?_ (rp_send_none _ _ _ _ _ hr)⟩
  rw [hps (st := .finalize) hst]
  show responseFinalize e _ = _
  unfold responseFinalize
  rw [rp_state_bind, rp_input, win_isGap, if_neg (by simp), rp_resp, if_neg ha.2, win_asSlice]
  cases a with
  | nil => exact absurd rfl hne
  | cons c a =>
    dsimp only
    rw [if_neg (hn c (by simp)).2, takeTillLf_none (fun h => (hn _ h).2 rfl)]
    dsimp only
    rw [rp_absentLf _ _ _ _ _ _ _ hl]

theorem sizeLoop_none {e : Env} :
    responseChunkedLengthLoop e [] = (responseTx e >>= fun _ => handleResponseAbsentLf e) := by
  rw [responseChunkedLengthLoop]
  congr 1

theorem pause_size {e : Env} (s : Conn) (h : Half) (t : Tx) (evs : List Event) (done : Bytes) (q : Nat)
    (hst : h.state = .bodyChunkedLength) (hr : h.receiver = none) (hl : h.buffered ≤ e.cfg.fieldLimit) :
    ∃ inp, responseStep e (rp s h t evs (win done [] q)) = (.ok (some .data),
      rp s { h with bytesConsumed := done.length, status := .data } t evs inp) := by
  refine ⟨_, rp_pause s { h with bytesConsumed := done.length } t evs evs (win done [] q) _
    (.inr rfl) (by rfl) ?_ (rp_send_none _ _ _ _ _ hr)⟩
  rw [hps (st := .bodyChunkedLength) hst]
  show responseBodyChunkedLength e _ = _
  unfold responseBodyChunkedLength
  rw [rp_state_bind, rp_input, win_asSlice, sizeLoop_none, rp_tx_bind, rp_absentLf _ _ _ _ _ _ _ (by simpa using hl), List.append_nil, List.append_nil]

/-- The line end after the data of a chunk is not there yet. -/
theorem pause_dataEnd {e : Env} (s : Conn) (h : Half) (t : Tx) (evs : List Event) (done a : Bytes) (q : Nat)
    (hst : h.state = .bodyChunkedDataEnd) (hr : h.receiver = none) (hn : (10 : UInt8) ∉ a) :
    ∃ inp ml, responseStep e (rp s h t evs (win done a q)) = (.ok (some .data),
      rp s { h with bytesConsumed := (done ++ a).length, status := .data } { t with responseMessageLen := ml } evs inp) := by
  refine ⟨_, _, rp_pause s { h with bytesConsumed := (done ++ a).length }
    { t with responseMessageLen := wrapAdd t.responseMessageLen a.length } evs evs (win (done ++ a) [] q) _
    (.inr rfl) (by rfl) ?_ (rp_send_none _ _ _ _ _ hr)⟩
  rw [hps (st := .bodyChunkedDataEnd) hst]
  show responseBodyChunkedDataEnd e _ = _
  unfold responseBodyChunkedDataEnd
  rw [rp_tx_bind, rp_state_bind, rp_input, win_asSlice, takeTillLf_none hn]
  dsimp only
  rw [rp_put_bind, rp_consume_bind, win_len, consume_all]
  rfl

/-- Some of a sized body, not all of it. -/
theorem pause_identity {e : Env} (hcb : CallbacksOK e) (s : Conn) (h : Half) (t : Tx) (evs : List Event)
    (done a : Bytes) (q n : Nat) (hst : h.state = .bodyIdentityClKnown) (ha : Alive h) (hr : h.receiver = none)
    (hl : h.bodyDataLeft = some (a.length + n)) (hn : n ≠ 0)
    (henc : t.responseContentEncodingProcessing = .none) (hlen : t.responseEntityLen + a.length < 2 ^ 64) :
    ∃ inp b ml, responseStep e (rp s h t evs (win done a q)) = (.ok (some .data),
      rp s { h with bytesConsumed := b, bodyDataLeft := some n, status := .data }
        { t with responseMessageLen := ml, responseEntityLen := t.responseEntityLen + a.length }
        (evs ++ if a = [] then [] else answerBodyCallbacks s.txs.response a) inp) := by
  by_cases h0 : a = []
  · subst h0
    refine ⟨(win done [] q).callbackData.2, h.bytesConsumed, t.responseMessageLen, ?_⟩
    rw [if_pos rfl, List.append_nil]
    have e1 : ({ h with bytesConsumed := h.bytesConsumed, bodyDataLeft := some n, status := .data } : Half) =
        { h with status := .data } := by
      rw [List.length_nil, Nat.zero_add] at hl
      rw [← hl]
    rw [e1]
    refine rp_pause s h t evs evs (win done [] q) _ (x := .data) (.inl rfl) (by rfl) ?_ (rp_send_none _ _ _ _ _ hr)
    rw [hps (st := .bodyIdentityClKnown) hst]
    show responseBodyIdentityClKnown e _ = _
    unfold responseBodyIdentityClKnown
    rw [rp_state_bind, rp_resp, if_neg ha.2]
    unfold responseIdentityOpen
    rw [rp_state_bind, rp_resp, hl]
    dsimp only
    rw [rp_input, win_len, if_pos (by simp)]
    rfl
  · have hpos : a.length ≠ 0 := by rw [ne_eq, List.length_eq_zero_iff]; exact h0
    refine ⟨_, _, _, rp_pause s { h with bytesConsumed := (done ++ a).length, bodyDataLeft := some n }
      { t with
        responseMessageLen := wrapAdd t.responseMessageLen a.length
        responseEntityLen := t.responseEntityLen + a.length }
      (evs ++ if a = [] then [] else answerBodyCallbacks s.txs.response a) _ (win (done ++ a) [] q) _ (x := .data) (.inl rfl)
      (by rfl) ?_ (rp_send_none _ _ _ _ _ hr)⟩
    rw [hps (st := .bodyIdentityClKnown) hst]
    show responseBodyIdentityClKnown e _ = _
    unfold responseBodyIdentityClKnown
    rw [rp_state_bind, rp_resp, if_neg ha.2]
    unfold responseIdentityOpen
    rw [rp_state_bind, rp_resp, hl]
    dsimp only
    rw [rp_input, win_len, Nat.min_eq_left (by omega), if_neg hpos]
    unfold responseIdentityData
    rw [M.bind_bind, rp_state_bind, rp_input, win_isGap, if_neg (by simp), M.bind_bind]
    rw [M.bind_ok (show inputPrefix a.length (rp s h t evs (win done a q)) = (.ok a, _) from by
      unfold inputPrefix
      rw [rp_input, win_asSlice, if_pos (by simp), List.take_length])]
    rw [M.bind_ok (rp_bodyData hcb _ _ _ _ _ (some a) henc hlen)]
    dsimp only [Option.getD]
    rw [rp_consume_bind, consume_all, rp_setResp_bind, Nat.add_sub_cancel_left, if_pos (by omega)]
    rfl

/-- Some of the data of a chunk, not all of it. -/
theorem pause_data {e : Env} (hcb : CallbacksOK e) (s : Conn) (h : Half) (t : Tx) (evs : List Event)
    (done a : Bytes) (q n : Nat) (hst : h.state = .bodyChunkedData) (hr : h.receiver = none)
    (hl : h.chunkedLength = some (a.length + n)) (hn : n ≠ 0)
    (henc : t.responseContentEncodingProcessing = .none) (hlen : t.responseEntityLen + a.length < 2 ^ 64) :
    ∃ inp b ml, responseStep e (rp s h t evs (win done a q)) = (.ok (some .data),
      rp s { h with bytesConsumed := b, chunkedLength := some n, status := .data }
        { t with responseMessageLen := ml, responseEntityLen := t.responseEntityLen + a.length }
        (evs ++ if a = [] then [] else answerBodyCallbacks s.txs.response a) inp) := by
  by_cases h0 : a = []
  · subst h0
    refine ⟨(win done [] q).callbackData.2, h.bytesConsumed, t.responseMessageLen, ?_⟩
    rw [if_pos rfl, List.append_nil]
    have e1 : ({ h with bytesConsumed := h.bytesConsumed, chunkedLength := some n, status := .data } : Half) =
        { h with status := .data } := by
      rw [List.length_nil, Nat.zero_add] at hl
      rw [← hl]
    rw [e1]
    refine rp_pause s h t evs evs (win done [] q) _ (x := .data) (.inl rfl) (by rfl) ?_ (rp_send_none _ _ _ _ _ hr)
    rw [hps (st := .bodyChunkedData) hst]
    show responseBodyChunkedData e _ = _
    unfold responseBodyChunkedData
    rw [rp_state_bind, rp_input, win_len, if_pos (by simp)]
    rfl
  · have hpos : a.length ≠ 0 := by rw [ne_eq, List.length_eq_zero_iff]; exact h0
    refine ⟨_, _, _, rp_pause s { h with bytesConsumed := (done ++ a).length, chunkedLength := some n }
      { t with
        responseMessageLen := wrapAdd t.responseMessageLen a.length
        responseEntityLen := t.responseEntityLen + a.length }
      (evs ++ if a = [] then [] else answerBodyCallbacks s.txs.response a) _ (win (done ++ a) [] q) _ (x := .data) (.inl rfl)
      (by rfl) ?_ (rp_send_none _ _ _ _ _ hr)⟩
    rw [hps (st := .bodyChunkedData) hst]
    show responseBodyChunkedData e _ = _
    unfold responseBodyChunkedData
    have hm : min (win done a q).len (h.chunkedLength.getD 0) = a.length := by
      rw [win_len, hl]
      exact Nat.min_eq_left (by show a.length ≤ a.length + n; omega)
    rw [rp_state_bind, rp_resp, rp_input]
    generalize min (win done a q).len (h.chunkedLength.getD 0) = m at hm
    subst hm
    rw [if_neg hpos]
    rw [M.bind_ok (show inputPrefix a.length (rp s h t evs (win done a q)) = (.ok a, _) from by
      unfold inputPrefix
      rw [rp_input, win_asSlice, if_pos (by simp), List.take_length])]
    rw [M.bind_ok (rp_bodyData hcb _ _ _ _ _ (some a) henc hlen)]
    rw [rp_consume_bind, consume_all, rp_setResp_bind, rp_state_bind, rp_resp]
    dsimp only [Option.getD]
    rw [hl]
    dsimp only [Option.map]
    rw [if_neg (by simp; omega), Nat.add_sub_cancel_left]
    rfl

/-- Some of a header block or trailer, not all of it. -/
theorem pause_headers {e : Env} (hcb : CallbacksOK e) (s : Conn) (h : Half) (t : Tx) (evs : List Event)
    (done a b : Bytes) (hk : DataHook) (hst : h.state = .headers) (ha : Alive h) (hr : h.receiver = some hk)
    (hp : t.responseHeaderParser = resP) (hbuf : h.buf = []) (ls : List HeaderLine) (hw : ∀ x ∈ ls, x.WellFormed)
    (hlim : ∀ x ∈ ls, x.render.length + 1 ≤ e.cfg.fieldLimit) (hlim1 : 1 ≤ e.cfg.fieldLimit)
    (hi : h.header.getD [] ++ a ++ b = renderBlock ls) (hb : b ≠ []) :
    ∃ js ms rest, ls = js ++ ms ∧ (ms = [] → ls = []) ∧ rest ++ b = renderBlock ms ∧ rest.length ≤ e.cfg.fieldLimit ∧
      responseStep e (rp s h t evs (win done a done.length)) = (.ok (some .data),
        rp s { h with bytesConsumed := (done ++ a).length, header := some rest, status := .data }
          { t with
            responseHeaders :=
              ((fieldsOf js).foldl (fun s h => s.1.store s.2 h) (t.responseHeaders, t.responseHeaderRepetitions)).1
            responseHeaderRepetitions :=
              ((fieldsOf js).foldl (fun s h => s.1.store s.2 h) (t.responseHeaders, t.responseHeaderRepetitions)).2 }
          (evs ++ [.data hk s.txs.response (.ofBytes a)]) (win (done ++ a) [] (done ++ a).length)) := by
  obtain ⟨js, ms, rest, h1, h2, h3, h4, h5, h6, h7⟩ := parseResponseHeaders_part t hp ls hw hi hb
  have hrest : rest.length ≤ e.cfg.fieldLimit := by
    cases ms with
    | nil =>
      have h5 : rest.length ≤ 1 := h5
      omega
    | cons x ms =>
      have := hlim x (by rw [h1]; simp)
      have h5 : rest.length ≤ x.render.length + 1 := h5
      omega
  refine ⟨js, ms, rest, h1, h2, h4, hrest, ?_⟩
  refine rp_pause s { h with bytesConsumed := (done ++ a).length, header := some rest }
    { t with
      responseHeaders := ((fieldsOf js).foldl (fun s h => s.1.store s.2 h) (t.responseHeaders, t.responseHeaderRepetitions)).1
      responseHeaderRepetitions :=
        ((fieldsOf js).foldl (fun s h => s.1.store s.2 h) (t.responseHeaders, t.responseHeaderRepetitions)).2 }
    evs _ (win (done ++ a) [] done.length) _ (x := .dataBuffer) (.inr rfl) (by rfl) ?_ (rp_send hcb _ _ _ _ _ _ _ _ hr)
  rw [hps (st := .headers) hst]
  show responseHeaders e _ = _
  unfold responseHeaders
  rw [rp_state_bind, rp_resp, if_neg ha.2]
  dsimp only
  rw [rp_input, win_asSlice, rp_setResp_bind, withResponse_rp _ _ _ _ _ _ _ _ _ h3]
  dsimp only
  have heol : (rest.length == (h.header.getD [] ++ a).length && (rest == b! "\r\n" || rest == b! "\n")) = false := by
    have e1 : (rest == b! "\r\n") = false := beq_eq_false_iff_ne.mpr h6
    have e2 : (rest == b! "\n") = false := beq_eq_false_iff_ne.mpr h7
    rw [e1, e2]
    simp
  rw [heol, if_neg (by simp), rp_consume_bind, win_len, consume_all]
  unfold checkResponseBufferLimit
  rw [M.bind_bind, rp_state_bind, rp_resp, if_neg (by
    rintro ⟨g0, g1⟩
    unfold Half.buffered at g1
    have g1 : h.buf.length + 0 + rest.length > e.cfg.fieldLimit := g1
    rw [hbuf, List.length_nil] at g1
    omega), M.pure_bind_run, rp_setResp_bind]
  rfl

/-! Going on. -/

/-- A response begins, with some of its status line already buffered. -/
theorem idle_from {e : Env} (hcb : CallbacksOK e) {s : Conn} (hbs : s.resp.state = .idle) (hst : s.resp.status ≠ .tunnel) {t : Tx}
    (hg : s.txs.get s.txs.response = some t) (hp : t.requestProgress ≠ .notStarted) (h9 : t.isProtocol09 = false)
    {done rest : Bytes} {q : Nat} (hi : s.input = win done rest q) (hne : rest ≠ []) :
    responseStep e s = (.ok none, rp s
      { s.resp with contentLength := none, bodyDataLeft := none, state := .line, statePrevious := .line }
      { t with responseProgress := .line } [.tx .responseStart s.txs.response] s.input) := by
  refine rp_round s { s.resp with contentLength := none, bodyDataLeft := none, state := .line }
    { t with responseProgress := .line } [.tx .responseStart s.txs.response] s.input
    (by rw [hi]; rfl) ?_ hst (by simp)
  rw [hps hbs]
  show responseIdle e s = _
  unfold responseIdle
  rw [M.bind_state, if_neg (by
    rw [hi, win_isEmpty]
    simpa using hne), M.bind_ok (responseTx_some hg)]
  rw [show (t.requestProgress == .notStarted) = false from by simpa using hp]
  refine (M.when_false_bind _ _ _).trans ?_
  show stateResponseStart e { s with resp := { s.resp with contentLength := none, bodyDataLeft := none } } = _
  unfold stateResponseStart
  rw [M.bind_ok (responseTx_some (by exact hg)), M.bind_state, if_neg (by rw [h9]; simp)]
  have := rp_hook s { s.resp with contentLength := none, bodyDataLeft := none, state := .line }
      { t with responseProgress := .line } [] s.input hcb .responseStart
  rw [show rp s { s.resp with contentLength := none, bodyDataLeft := none, state := .line }
      { t with responseProgress := .line } [] s.input = _ from by simp only [rp, List.append_nil]; rfl] at this
  exact this

/-- The rest of the status line. -/
theorem line_from {e : Env} (hcb : CallbacksOK e) {head : Bool} {r : Response} (hr : r.WellFormed head) (s : Conn)
    (h : Half) (t : Tx) (evs : List Event) (done x rest : Bytes) (q : Nat) (hst : h.state = .line)
    (hpr : h.statePrevious = .line) (hb : h.buf ++ x = r.line) (hh : h.header = none) (ha : Alive h)
    (hlim : r.line.length + 2 ≤ e.cfg.fieldLimit) (hx : t.index = s.txs.response) :
    responseStep e (rp s h t evs (win done (x ++ [13, 10] ++ rest) q)) = (.ok none,
      rp s { h with
          buf := [], bytesConsumed := (done ++ (x ++ [13, 10])).length, state := .headers, statePrevious := .headers
          receiver := some .responseHeaderData }
        { t with
          responseLine := some (r.line ++ [13, 10])
          responseProtocol := some r.protocol
          responseProtocolNumber := parseProtocol r.protocol
          responseStatus := some (Spec.render 10 r.code)
          responseStatusNumber := .valid r.code
          responseMessage := some r.message
          responseProgress := .headers }
        (evs ++ [.tx .responseLine s.txs.response])
        (win (done ++ (x ++ [13, 10])) rest (done ++ (x ++ [13, 10])).length)) := by
  have key : handleResponseState e (rp s h t evs (win done (x ++ [13, 10] ++ rest) q)) = (.ok (),
      rp s { h with buf := [], bytesConsumed := (done ++ (x ++ [13, 10])).length, state := .headers }
        { t with
          responseLine := some (r.line ++ [13, 10])
          responseProtocol := some r.protocol
          responseProtocolNumber := parseProtocol r.protocol
          responseStatus := some (Spec.render 10 r.code)
          responseStatusNumber := .valid r.code
          responseMessage := some r.message
          responseProgress := .headers }
        (evs ++ [.tx .responseLine s.txs.response])
        (win (done ++ (x ++ [13, 10])) rest q)) := by
    rw [hps (st := .line) hst]
    show responseLine e _ = _
    unfold responseLine
    rw [rp_state_bind, rp_input, win_asSlice, takeTillEol_crlf (fun c hc => response_noEol hr.head c (by rw [← hb]; exact List.mem_append_right _ hc))]
    dsimp only
    rw [rp_setResp_bind, rp_consume_bind, win_consume, rp_resp, ← List.append_assoc h.buf, hb]
    unfold responseLineComplete checkResponseBufferLimit
    rw [M.bind_bind, rp_state_bind, rp_resp]
    rw [if_neg (by
      unfold Half.buffered
      dsimp only
      rw [hh]
      simp
      omega), M.pure_bind_run]
    rw [if_neg (by simp), rp_tx_bind]
    obtain ⟨cs, hc⟩ := response_cons hr.head
    rw [show isLineIgnorable e.cfg.serverPersonality (r.line ++ [13, 10]) = false from by
      rw [hc]; exact notIgnorable _ _ (by decide)]
    rw [if_neg (by simp)]
    unfold responseLineRead
    rw [rp_modify_bind, rp_state_bind, notAsBody hr.head, if_neg (by simp), rp_modify_bind, readResponseLine_wf _ hr.head]
    unfold stateResponseLine
    rw [M.bind_bind, rp_tx_bind, M.bind_bind, rp_put_bind]
    obtain ⟨p, hp⟩ := hr.protocol
    rw [validateResponseLine_wf (n := r.code) _ (by
      show parseProtocol r.protocol ≠ _
      rw [(protocol_facts _ hp).1]; exact protocol_number _ hp) rfl (by have := hr.code; omega) hr.code.2]
    dsimp only
    rw [hx, rp_hook_bind _ _ _ _ _ hcb, rp_setResp_bind, rp_modify]
    rfl
  have := rp_round_headers s _ _ _ _ (by rfl) key ha.1 rfl (by dsimp only; rw [hpr]; decide) .responseHeaderData (.inl ⟨rfl, rfl⟩)
  rw [this]
  rfl

/-- The rest of the header fields. -/
theorem headers_from {e : Env} (s : Conn) (h : Half) (t : Tx)
    (evs : List Event) (done x rest : Bytes) (q : Nat) (hst : h.state = .headers) (ls : List HeaderLine) (hw : ∀ y ∈ ls, y.WellFormed)
    (hx : h.header.getD [] ++ x = renderBlock ls)
    (ha : Alive h) (hp : t.responseProgress = .headers)
    (hf : AnswerFollows ls rest) :
    responseStep e (rp s h t evs (win done (x ++ rest) q)) = (.ok none,
      rp s { h with
          header := none, bytesConsumed := (done ++ x).length
          state := .bodyDetermine, statePrevious := .bodyDetermine }
        { t with
          responseHeaders := 
            ((fieldsOf ls).foldl (fun s h => s.1.store s.2 h) (t.responseHeaders, t.responseHeaderRepetitions)).1
          responseHeaderRepetitions :=
            ((fieldsOf ls).foldl (fun s h => s.1.store s.2 h) (t.responseHeaders, t.responseHeaderRepetitions)).2 }
        evs (win (done ++ x) rest q)) := by
  obtain ⟨rem, eoh, h1, h2, h3⟩ := parseResponseHeaders_end t ls hw hx hf
  refine rp_round (s0 := rp s h t evs (win done (x ++ rest) q)) s { h with
          header := none, bytesConsumed := (done ++ x).length
          state := .bodyDetermine } _ _ _ rfl ?_ ha.1 (by simp)
  rw [hps (st := .headers) hst]
  show responseHeaders e _ = _
  unfold responseHeaders
  rw [rp_state_bind, rp_resp, if_neg ha.2]
  dsimp only
  rw [rp_input, win_asSlice, rp_setResp_bind, withResponse_rp _ _ _ _ _ _ _ _ _ h1]
  dsimp only
  rw [if_pos h2, win_len, h3, rp_consume_bind, win_consume]
  unfold responseHeadersDone
  rw [rp_tx_bind, if_pos hp]
  rfl

/-- The rest of the trailer. -/
theorem trailer_from {e : Env} (hcb : CallbacksOK e) (hs : List HeaderLine) (hw : ∀ h ∈ hs, h.WellFormed) (s : Conn)
    (h : Half) (t : Tx) (evs : List Event) (done x rest : Bytes) (hst : h.state = .headers) 
    (hx : h.header.getD [] ++ x = renderBlock hs)
    (hrc : h.receiver = some .responseTrailerData) (ha : Alive h) (hp : t.responseProgress = .trailer)
    (hf : AnswerFollows hs rest) :
    responseStep e (rp s h t evs (win done (x ++ rest) done.length)) = (.ok none,
      rp s { h with
          header := none, bytesConsumed := (done ++ x).length, receiver := none
          state := .finalize, statePrevious := .finalize }
        { t with
          responseHeaders := ((fieldsOf hs).foldl (fun s h => s.1.store s.2 h) (t.responseHeaders, t.responseHeaderRepetitions)).1
          responseHeaderRepetitions :=
            ((fieldsOf hs).foldl (fun s h => s.1.store s.2 h) (t.responseHeaders, t.responseHeaderRepetitions)).2 }
        (evs ++ [.data .responseTrailerData s.txs.response (.ofBytes x), .tx .responseTrailer s.txs.response])
        (win (done ++ x) rest (done ++ x).length)) := by
  obtain ⟨rem, eoh, h1, h2, h3⟩ := parseResponseHeaders_end t hs hw hx hf
  generalize hta : ({ t with
          responseHeaders := ((fieldsOf hs).foldl (fun s h => s.1.store s.2 h) (t.responseHeaders, t.responseHeaderRepetitions)).1
          responseHeaderRepetitions :=
            ((fieldsOf hs).foldl (fun s h => s.1.store s.2 h) (t.responseHeaders, t.responseHeaderRepetitions)).2 } : Tx) = ta
    at h1
  have hpa : ta.responseProgress = .trailer := by rw [← hta]; exact hp
  have key : handleResponseState e (rp s h t evs (win done (x ++ rest) done.length)) = (.ok (), rp s { h with
          header := none, bytesConsumed := (done ++ x).length, receiver := none, state := .finalize } ta
        (evs ++ [.data .responseTrailerData s.txs.response (.ofBytes x), .tx .responseTrailer s.txs.response])
        (win (done ++ x) rest (done ++ x).length)) := by
    rw [hps (st := .headers) hst]
    show responseHeaders e _ = _
    unfold responseHeaders
    rw [rp_state_bind, rp_resp, if_neg ha.2]
    dsimp only
    rw [rp_input, win_asSlice, rp_setResp_bind, withResponse_rp _ _ _ _ _ _ _ _ _ h1]
    dsimp only
    rw [if_pos h2, win_len, h3, rp_consume_bind, win_consume]
    unfold responseHeadersDone
    rw [rp_tx_bind, hpa, if_neg (by decide)]
    unfold responseTrailer
    rw [M.bind_ok (rp_finalizeClear _ _ _ _ hcb done x rest .responseTrailerData (by exact hrc)),
      rp_state_bind, rp_response, rp_hook_bind _ _ _ _ _ hcb, rp_setResp, List.append_assoc]
    rfl
  subst hta
  exact rp_round (s0 := rp s h t evs (win done (x ++ rest) done.length)) s _ _ _ _ rfl key ha.1 (by simp)

/-- The rest of the line end after the data of a chunk. -/
theorem dataEnd_from {e : Env} (s : Conn) (h : Half) (t : Tx) (evs : List Event) (done x rest : Bytes) (q : Nat)
    (hst : h.state = .bodyChunkedDataEnd) (ha : Alive h) (hx : (10 : UInt8) ∉ x) :
    responseStep e (rp s h t evs (win done (x ++ [10] ++ rest) q)) = (.ok none,
      rp s { h with
          bytesConsumed := (done ++ (x ++ [10])).length, state := .bodyChunkedLength, statePrevious := .bodyChunkedLength }
        { t with responseMessageLen := wrapAdd t.responseMessageLen (x ++ [10]).length } evs (win (done ++ (x ++ [10])) rest q)) := by
  refine rp_round (s0 := rp s h t evs (win done (x ++ [10] ++ rest) q)) s
    { h with bytesConsumed := (done ++ (x ++ [10])).length, state := .bodyChunkedLength }
    { t with responseMessageLen := wrapAdd t.responseMessageLen (x ++ [10]).length } evs (win (done ++ (x ++ [10])) rest q) rfl ?_ ha.1
    (by simp)
  rw [hps (st := .bodyChunkedDataEnd) hst]
  show responseBodyChunkedDataEnd e _ = _
  unfold responseBodyChunkedDataEnd
  have h1 : takeTillLf (x ++ [10] ++ rest) = .ok rest (x ++ [10]) := by
    rw [List.append_assoc]
    exact takeTillLf_line hx
  rw [rp_tx_bind, rp_state_bind, rp_input, win_asSlice, h1]
  dsimp only
  rw [rp_consume_bind, win_consume, rp_put_bind]
  rfl

/-- The response is complete: the next one begins, and some of its status line may have been buffered. -/
theorem finalize_from {e : Env} (hcb : CallbacksOK e) (s : Conn) (h : Half) (t : Tx) (evs : List Event)
    (done x rest : Bytes) (q : Nat) (hst : h.state = .finalize) (ha : Alive h) {head : Bool} {r : Response}
    (hrw : r.WellFormed head) (hb : h.buf ++ x = r.line) (hdone : h.buf ≠ [] → done = [])
    (hlim : h.buffered + x.length + 2 ≤ e.cfg.fieldLimit)
    (hr : h.receiver = none) (hso : h.status ≠ .dataOther) (hblk : s.responseDataOtherAtTxEnd = false)
    (hq : t.requestProgress = .complete) (hp : t.responseProgress ≠ .complete)
    (henc : t.responseContentEncodingProcessing = .none) (hlen : t.responseEntityLen < 2 ^ 64) :
    ∃ ml b, responseStep e (rp s h t evs (win done (x ++ [13, 10] ++ rest) q)) = (.ok none,
      answered e.cfg.txAutoDestroy s { h with bytesConsumed := b, state := .idle, statePrevious := .idle }
        { t with responseMessageLen := ml, responseProgress := .complete }
        (evs ++ [.tx .responseComplete s.txs.response, .tx .transactionComplete s.txs.response])
        (win done (x ++ [13, 10] ++ rest) q)) := by
  by_cases h0 : h.buf = []
  · rw [h0, List.nil_append] at hb
    subst hb
    exact answer_finalize hcb s h t evs done _ q hst ha h0 (.inr ⟨head, r, hrw, rest, rfl⟩) hr hso hblk hq hp henc hlen
  obtain rfl := hdone h0
  obtain ⟨ml, h1⟩ := complete_rp hcb s { h with bytesConsumed := 0 } t evs
    (win [] (x ++ [13, 10] ++ rest) q) hr hso hblk hq hp henc hlen
  refine ⟨ml, 0, ?_⟩
  refine answered_round (s0 := rp s h t evs (win [] (x ++ [13, 10] ++ rest) q)) s
    { h with bytesConsumed := 0, state := .idle } _ _ _ rfl ?_ ha.1 (by simp)
  rw [hps (st := .finalize) hst]
  show responseFinalize e _ = _
  unfold responseFinalize
  have hno : ∀ c ∈ x, c ≠ 13 ∧ c ≠ 10 := fun c hc => response_noEol hrw.head c (by rw [← hb]; exact List.mem_append_right _ hc)
  have hl : takeTillLf (x ++ [13, 10] ++ rest) = .ok rest (x ++ [13, 10]) := by
    have := takeTillLf_line (x := x ++ [13]) (rest := rest) (by
      simp only [List.mem_append, not_or]; exact ⟨fun h => (hno _ h).2 rfl, by decide⟩)
    simpa using this
  obtain ⟨c, cs, hcons, hc10⟩ : ∃ c cs, x ++ [13, 10] ++ rest = c :: cs ∧ c ≠ 10 := by
    cases x with
    | nil => exact ⟨_, _, rfl, by decide⟩
    | cons c x => exact ⟨_, _, rfl, (hno c (by simp)).2⟩
  rw [rp_state_bind, rp_input, win_isGap, if_neg (by simp), rp_resp, if_neg ha.2, win_asSlice, hcons]
  dsimp only
  rw [if_neg hc10, ← hcons, hl]
  dsimp only
  rw [rp_consume_bind, win_consume]
  unfold responseFinalizeLine
  rw [rp_state_bind, rp_resp]
  dsimp only
  rw [show decide (h.buf ≠ []) = true from by simpa using h0]
  unfold checkResponseBufferLimit
  rw [show ∀ m : M Unit, M.when true m = m from fun _ => rfl, M.bind_bind, rp_state_bind, rp_resp]
  rw [if_neg (by
    rintro ⟨-, g⟩
    unfold Half.buffered at g hlim
    dsimp only at g
    simp only [List.length_append, List.length_cons, List.length_nil] at g
    omega), M.pure_bind_run]
  rw [rp_setResp_bind, if_neg (by simp), ← List.append_assoc, hb, notAsBody hrw.head, if_neg (by simp), rp_setResp_bind,
    rp_unconsume_bind, win_unconsume_all _ _ _ _ (by rw [List.nil_append, ← hb]; simp), List.nil_append]
  exact h1

end Model.Ans

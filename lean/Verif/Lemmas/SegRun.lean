/-
What a call does whose data ends in the middle of a request.
-/
import Verif.Lemmas.SegBlock
import Verif.Lemmas.ReqSequence
import Verif.Spec.Segmented

namespace Model

open M Spec Props

/-! Tokens. -/

theorem loose_append (a b : Bytes) : loose (a ++ b) = loose a ++ loose b := List.map_append

theorem bytesOf_loose (b : Bytes) : bytesOf (loose b) = b := by
  have := bytesOf_byte b
  exact this

/-- Where a call ends: among these bytes, or later. -/
theorem loose_split {x : Bytes} {T c later : List Token} (h : loose x ++ T = c ++ later) :
    (∃ a b, x = a ++ b ∧ b ≠ [] ∧ c = loose a ∧ later = loose b ++ T) ∨ ∃ c', c = loose x ++ c' ∧ T = c' ++ later := by
  rcases List.append_eq_append_iff.mp h with ⟨c', h1, h2⟩ | ⟨b', h1, h2⟩
  · exact .inr ⟨c', h1, h2⟩
  · by_cases hb : b' = []
    · subst hb
      refine .inr ⟨[], ?_, by simpa using h2.symm⟩
      simpa using h1.symm
    · obtain ⟨a, b, rfl, ha, hb'⟩ := List.map_eq_append_iff.mp h1
      refine .inl ⟨a, b, rfl, ?_, ha.symm, ?_⟩
      · rintro rfl
        exact hb (by rw [← hb']; rfl)
      · rw [h2, ← hb']; rfl

theorem line_split {l : Bytes} {T c later : List Token} (h : Token.line l :: T = c ++ later) :
    (c = [] ∧ later = .line l :: T) ∨ ∃ c', c = .line l :: c' ∧ T = c' ++ later := by
  cases c with
  | nil => exact .inl ⟨rfl, h.symm⟩
  | cons a c =>
    simp only [List.cons_append, List.cons.injEq] at h
    exact .inr ⟨c, by rw [h.1], h.2⟩

/-! The end of the data. -/

theorem rq_send {e : Env} (hcb : CallbacksOK e) (s : Conn) (h : Half) (t : Tx) (evs : List Event) (done a b : Bytes)
    (hk : DataHook) (hr : h.receiver = some hk) :
    requestReceiverSendData e (rq s h t evs (win (done ++ a) b done.length)) =
      (.ok (), rq s h t (evs ++ [.data hk s.txs.request (.ofBytes a)]) (win (done ++ a) b (done ++ a).length)) := by
  unfold requestReceiverSendData
  rw [rq_state_bind, rq_window_bind (g := fun i => i.callbackData.2), rq_input, rq_req, hr, win_callback, rq_tx_bind]
  exact rq_emit _ _ _ _ _ hcb _

theorem rq_send_none {e : Env} (s : Conn) (h : Half) (t : Tx) (evs : List Event) (inp : PData) (hr : h.receiver = none) :
    requestReceiverSendData e (rq s h t evs inp) = (.ok (), rq s h t evs inp.callbackData.2) := by
  unfold requestReceiverSendData
  rw [rq_state_bind, rq_window_bind (g := fun i => i.callbackData.2), rq_req, hr, rq_tx_bind]
  rfl

theorem rq_pause {e : Env} {s0 : Conn} (s : Conn) (h : Half) (t : Tx) (evs evs' : List Event) (inp inp' : PData) {x : Status}
    (hx : x = .data ∨ x = .dataBuffer) (hg : s0.input.isGap = false)
    (h1 : handleRequestState e s0 = (.error (.status x), rq s h t evs inp))
    (h2 : requestReceiverSendData e (rq s h t evs inp) = (.ok (), rq s h t evs' inp')) :
    requestStep e s0 = (.ok (some .data), rq s { h with status := .data } t evs' inp') := by
  rw [requestStep_rc (by rw [hg]; rfl) (M.attempt_error h1)]
  unfold requestStepTail
  rw [rq_state_bind]
  dsimp only
  unfold requestAfterStep
  rcases hx with rfl | rfl <;> dsimp only <;> rw [M.bind_ok (M.attempt_ok h2)] <;> rfl

theorem rq_absentLf {e : Env} (s : Conn) (h : Half) (t : Tx) (evs : List Event) (done a : Bytes) (q : Nat)
    (hl : h.buffered + a.length ≤ e.cfg.fieldLimit) :
    handleRequestAbsentLf e (rq s h t evs (win done a q)) = (.error (.status .dataBuffer),
      rq s { h with buf := h.buf ++ a, bytesConsumed := (done ++ a).length } t evs (win (done ++ a) [] q)) := by
  unfold handleRequestAbsentLf checkRequestBufferLimit
  rw [rq_state_bind, M.bind_bind, rq_state_bind, rq_req, rq_input, win_len, if_neg (by omega), M.pure_bind_run, rq_setReq_bind,
    rq_consume_bind, win_asSlice]
  have h1 : (win done a q).consume a.length = win (done ++ a) [] q := by
    have := win_consume done a [] q
    rwa [List.append_nil] at this
  rw [h1]
  rfl

theorem pause_line {e : Env} (s : Conn) (h : Half) (t : Tx) (evs : List Event) (done a : Bytes) (q : Nat)
    (hst : h.state = .line) (ha : Alive h) (hr : h.receiver = none) (hn : (10 : UInt8) ∉ a)
    (hl : h.buffered + a.length ≤ e.cfg.fieldLimit) :
    ∃ inp, requestStep e (rq s h t evs (win done a q)) = (.ok (some .data),
      rq s { h with buf := h.buf ++ a, bytesConsumed := (done ++ a).length, status := .data } t evs inp) := by
  refine ⟨_, rq_pause s { h with buf := h.buf ++ a, bytesConsumed := (done ++ a).length } t evs evs (win (done ++ a) [] q) _
    (.inr rfl) (by rfl) ?_ (rq_send_none _ _ _ _ _ hr)⟩
  rw [hrs (st := .line) hst]
  show requestLine e _ = _
  unfold requestLine
  rw [rq_state_bind, rq_input, win_asSlice, takeTillLf_none hn]
  dsimp only
  rw [rq_req, if_neg ha.2, rq_absentLf _ _ _ _ _ _ _ hl]

theorem pause_final {e : Env} (s : Conn) (h : Half) (t : Tx) (evs : List Event) (done a : Bytes) (q : Nat)
    (hst : h.state = .finalize) (ha : Alive h) (hr : h.receiver = none) (hn : (10 : UInt8) ∉ a) (hne : a ≠ [])
    (hl : h.buffered + a.length ≤ e.cfg.fieldLimit) :
    ∃ inp, requestStep e (rq s h t evs (win done a q)) = (.ok (some .data),
      rq s { h with buf := h.buf ++ a, bytesConsumed := (done ++ a).length, status := .data } t evs inp) := by
  refine ⟨_, rq_pause s { h with buf := h.buf ++ a, bytesConsumed := (done ++ a).length } t evs evs (win (done ++ a) [] q) _
    (.inr rfl) (by rfl) ?_ (rq_send_none _ _ _ _ _ hr)⟩
  rw [hrs (st := .finalize) hst]
  show requestFinalize e _ = _
  unfold requestFinalize
  rw [rq_state_bind, rq_input, win_isGap, if_neg (by simp), rq_req, if_neg ha.2, win_asSlice, if_neg hne, takeTillLf_none hn]
  dsimp only
  rw [rq_absentLf _ _ _ _ _ _ _ hl]

theorem pause_size {e : Env} (s : Conn) (h : Half) (t : Tx) (evs : List Event) (done : Bytes) (q : Nat)
    (hst : h.state = .bodyChunkedLength) (hr : h.receiver = none) (hl : h.buffered ≤ e.cfg.fieldLimit) :
    ∃ inp, requestStep e (rq s h t evs (win done [] q)) = (.ok (some .data),
      rq s { h with bytesConsumed := done.length, status := .data } t evs inp) := by
  refine ⟨_, rq_pause s { h with bytesConsumed := done.length } t evs evs (win done [] q) _
    (.inr rfl) (by rfl) ?_ (rq_send_none _ _ _ _ _ hr)⟩
  rw [hrs (st := .bodyChunkedLength) hst]
  show requestBodyChunkedLength e _ = _
  unfold requestBodyChunkedLength
  have h1 : requestChunkedLengthLoop e [] = handleRequestAbsentLf e := by
    rw [requestChunkedLengthLoop]
    split
    next rest' line' hl =>
      rw [takeTillLf_none (by simp)] at hl
      cases hl
    next => rfl
  rw [rq_state_bind, rq_input, win_asSlice, h1, rq_absentLf _ _ _ _ _ _ _ (by simpa using hl), List.append_nil, List.append_nil]

theorem pause_dataEnd {e : Env} (s : Conn) (h : Half) (t : Tx) (evs : List Event) (done : Bytes) (q : Nat)
    (hst : h.state = .bodyChunkedDataEnd) (hr : h.receiver = none) (hl : h.buffered ≤ e.cfg.fieldLimit) :
    ∃ inp ml, requestStep e (rq s h t evs (win done [] q)) = (.ok (some .data),
      rq s { h with bytesConsumed := done.length, status := .data } { t with requestMessageLen := ml } evs inp) := by
  refine ⟨_, _, rq_pause s { h with bytesConsumed := done.length }
    { t with requestMessageLen := wrapAdd t.requestMessageLen 0 } evs evs (win done [] q) _
    (.inr rfl) (by rfl) ?_ (rq_send_none _ _ _ _ _ hr)⟩
  rw [hrs (st := .bodyChunkedDataEnd) hst]
  show requestBodyChunkedDataEnd e _ = _
  unfold requestBodyChunkedDataEnd
  rw [rq_tx_bind, rq_state_bind, rq_input, win_asSlice, takeTillLf_none (by simp)]
  dsimp only
  rw [rq_put_bind, rq_absentLf _ _ _ _ _ _ _ (by simpa using hl), List.append_nil, List.append_nil, win_len]
  rfl

/-- Some of a sized body, not all of it. -/
theorem pause_identity {e : Env} (hcb : CallbacksOK e) (s : Conn) (h : Half) (t : Tx) (evs : List Event)
    (done a : Bytes) (q n : Nat) (hst : h.state = .bodyIdentity) (hr : h.receiver = none)
    (hl : h.bodyDataLeft = some (a.length + n)) (hn : n ≠ 0)
    (henc : t.requestContentEncodingProcessing = .none) (hlen : t.requestEntityLen + a.length < 2 ^ 64) :
    ∃ inp b ml, requestStep e (rq s h t evs (win done a q)) = (.ok (some .data),
      rq s { h with bytesConsumed := b, bodyDataLeft := some n, status := .data }
        { t with requestMessageLen := ml, requestEntityLen := t.requestEntityLen + a.length }
        (evs ++ if a = [] then [] else bodyCallbacks s.txs.request (some a)) inp) := by
  by_cases h0 : a = []
  · subst h0
    refine ⟨(win done [] q).callbackData.2, h.bytesConsumed, t.requestMessageLen, ?_⟩
    rw [if_pos rfl, List.append_nil]
    have e1 : ({ h with bytesConsumed := h.bytesConsumed, bodyDataLeft := some n, status := .data } : Half) =
        { h with status := .data } := by
      rw [List.length_nil, Nat.zero_add] at hl
      rw [← hl]
    rw [e1]
    refine rq_pause s h t evs evs (win done [] q) _ (x := .data) (.inl rfl) (by rfl) ?_ (rq_send_none _ _ _ _ _ hr)
    rw [hrs (st := .bodyIdentity) hst]
    show requestBodyIdentity e _ = _
    unfold requestBodyIdentity
    rw [rq_state_bind, rq_req, hl]
    dsimp only
    rw [rq_input, win_len, if_pos (by simp)]
    rfl
  · have hpos : a.length ≠ 0 := by rw [ne_eq, List.length_eq_zero_iff]; exact h0
    refine ⟨_, _, _, rq_pause s { h with bytesConsumed := (done ++ a).length, bodyDataLeft := some n }
      { t with
        requestMessageLen := wrapAdd t.requestMessageLen a.length
        requestEntityLen := t.requestEntityLen + a.length }
      (evs ++ if a = [] then [] else bodyCallbacks s.txs.request (some a)) _ (win (done ++ a) [] q) _ (x := .data) (.inl rfl)
      (by rfl) ?_ (rq_send_none _ _ _ _ _ hr)⟩
    rw [if_neg h0]
    rw [hrs (st := .bodyIdentity) hst]
    show requestBodyIdentity e _ = _
    unfold requestBodyIdentity
    rw [rq_state_bind, rq_req, hl]
    dsimp only
    rw [rq_input, win_len, Nat.min_eq_left (by omega), if_neg hpos]
    unfold requestIdentityData
    rw [M.bind_bind, rq_state_bind, rq_input, win_isGap, if_neg (by simp), M.bind_bind]
    rw [M.bind_ok (show inputPrefix a.length (rq s h t evs (win done a q)) = (.ok a, _) from by
      unfold inputPrefix
      rw [rq_input, win_asSlice, if_pos (by simp), List.take_length])]
    rw [M.bind_ok (rq_bodyData hcb _ _ _ _ _ (some a) (by simpa using h0) henc hlen)]
    dsimp only [Option.getD]
    have h1 : (win done a q).consume a.length = win (done ++ a) [] q := by
      have := win_consume done a [] q
      rwa [List.append_nil] at this
    rw [rq_consume_bind, h1, rq_setReq_bind, Nat.add_sub_cancel_left, if_pos (by omega)]
    rfl

/-- Some of the data of a chunk, not all of it. -/
theorem pause_data {e : Env} (hcb : CallbacksOK e) (s : Conn) (h : Half) (t : Tx) (evs : List Event)
    (done a : Bytes) (q n : Nat) (hst : h.state = .bodyChunkedData) (hr : h.receiver = none)
    (hl : h.chunkedLength = some (a.length + n)) (hn : n ≠ 0)
    (henc : t.requestContentEncodingProcessing = .none) (hlen : t.requestEntityLen + a.length < 2 ^ 64) :
    ∃ inp b ml, requestStep e (rq s h t evs (win done a q)) = (.ok (some .data),
      rq s { h with bytesConsumed := b, chunkedLength := some n, status := .data }
        { t with requestMessageLen := ml, requestEntityLen := t.requestEntityLen + a.length }
        (evs ++ if a = [] then [] else bodyCallbacks s.txs.request (some a)) inp) := by
  by_cases h0 : a = []
  · subst h0
    refine ⟨(win done [] q).callbackData.2, h.bytesConsumed, t.requestMessageLen, ?_⟩
    rw [if_pos rfl, List.append_nil]
    have e1 : ({ h with bytesConsumed := h.bytesConsumed, chunkedLength := some n, status := .data } : Half) =
        { h with status := .data } := by
      rw [List.length_nil, Nat.zero_add] at hl
      rw [← hl]
    rw [e1]
    refine rq_pause s h t evs evs (win done [] q) _ (x := .data) (.inl rfl) (by rfl) ?_ (rq_send_none _ _ _ _ _ hr)
    rw [hrs (st := .bodyChunkedData) hst]
    show requestBodyChunkedData e _ = _
    unfold requestBodyChunkedData
    rw [rq_state_bind, rq_input, win_len, if_pos (by simp)]
    rfl
  · have hpos : a.length ≠ 0 := by rw [ne_eq, List.length_eq_zero_iff]; exact h0
    refine ⟨_, _, _, rq_pause s { h with bytesConsumed := (done ++ a).length, chunkedLength := some n }
      { t with
        requestMessageLen := wrapAdd t.requestMessageLen a.length
        requestEntityLen := t.requestEntityLen + a.length }
      (evs ++ if a = [] then [] else bodyCallbacks s.txs.request (some a)) _ (win (done ++ a) [] q) _ (x := .data) (.inl rfl)
      (by rfl) ?_ (rq_send_none _ _ _ _ _ hr)⟩
    rw [if_neg h0]
    rw [hrs (st := .bodyChunkedData) hst]
    show requestBodyChunkedData e _ = _
    unfold requestBodyChunkedData
    have hm : min (win done a q).len (h.chunkedLength.getD 0) = a.length := by
      rw [win_len, hl]
      exact Nat.min_eq_left (by show a.length ≤ a.length + n; omega)
    rw [rq_state_bind, rq_req, rq_input]
    generalize min (win done a q).len (h.chunkedLength.getD 0) = m at hm
    subst hm
    rw [if_neg hpos]
    rw [M.bind_ok (show inputPrefix a.length (rq s h t evs (win done a q)) = (.ok a, _) from by
      unfold inputPrefix
      rw [rq_input, win_asSlice, if_pos (by simp), List.take_length])]
    rw [M.bind_ok (rq_bodyData hcb _ _ _ _ _ (some a) (by simpa using h0) henc hlen)]
    have h1 : (win done a q).consume a.length = win (done ++ a) [] q := by
      have := win_consume done a [] q
      rwa [List.append_nil] at this
    rw [rq_consume_bind, h1, rq_setReq_bind, rq_state_bind, rq_req]
    dsimp only
    rw [hl]
    dsimp only [Option.map]
    rw [if_neg (by simp; omega), Nat.add_sub_cancel_left]
    rfl

/-- Some lines of a header block or trailer, perhaps not all, and no empty line. -/
theorem pause_headers {e : Env} (hcb : CallbacksOK e) (s : Conn) (h : Half) (t : Tx) (evs : List Event)
    (done a b : Bytes) (hk : DataHook) (hst : h.state = .headers) (ha : Alive h) (hr : h.receiver = some hk)
    (hp : t.requestHeaderParser = reqP) (ls : List HeaderLine) (hw : ∀ x ∈ ls, x.WellFormed)
    (hlim : ∀ x ∈ ls, h.buf.length + x.render.length ≤ e.cfg.fieldLimit)
    (hi : h.header.getD [] ++ a ++ b = linesOf ls) :
    ∃ js ms rest, ls = js ++ ms ∧ (ms = [] → ls = []) ∧ rest ++ b = linesOf ms ∧
      h.buf.length + rest.length ≤ max h.buf.length e.cfg.fieldLimit ∧
      requestStep e (rq s h t evs (win done a done.length)) = (.ok (some .data),
        rq s { h with bytesConsumed := (done ++ a).length, header := some rest, status := .data }
          { t with
            requestHeaders := ((fieldsOf js).foldl (fun s h => s.1.store s.2 h) (t.requestHeaders, t.requestHeaderRepetitions)).1
            requestHeaderRepetitions :=
              ((fieldsOf js).foldl (fun s h => s.1.store s.2 h) (t.requestHeaders, t.requestHeaderRepetitions)).2 }
          (evs ++ [.data hk s.txs.request (.ofBytes a)]) (win (done ++ a) [] (done ++ a).length)) := by
  obtain ⟨js, ms, rest, h1, h2, h3, h4, h5, h6⟩ : ∃ js ms rest, ls = js ++ ms ∧ (ms = [] → ls = []) ∧
      t.parseRequestHeaders (h.header.getD [] ++ a) = ((rest, false),
      { t with
        requestHeaders := ((fieldsOf js).foldl (fun s h => s.1.store s.2 h) (t.requestHeaders, t.requestHeaderRepetitions)).1
        requestHeaderRepetitions :=
          ((fieldsOf js).foldl (fun s h => s.1.store s.2 h) (t.requestHeaders, t.requestHeaderRepetitions)).2 }) ∧
      rest ++ b = linesOf ms ∧ rest.length ≤ (ms.head?.map fun h => h.render.length).getD 0 ∧
      (rest = [] ∨ ∃ c r, rest = c :: r ∧ Tchar c) := by
    by_cases h0 : ls = []
    · subst h0
      have h1 : h.header.getD [] ++ a = [] ∧ b = [] := by
        have : h.header.getD [] ++ a ++ b = [] := hi
        exact List.append_eq_nil_iff.mp this
      refine ⟨[], [], [], rfl, fun _ => rfl, ?_, by rw [h1.2]; rfl, by simp, .inl rfl⟩
      rw [h1.1]
      unfold Tx.parseRequestHeaders
      rw [show t.requestHeaderParser.headers [] = .incomplete from by
        have : reqP.header [] = .incomplete := by decide +kernel
        rw [hp]
        simp [HeaderParser.headers, this]]
      rfl
    · obtain ⟨js, ms, rest, h1, h2, h3, h4, h5⟩ := parseRequestHeaders_part t hp ls h0 hw hi
      refine ⟨js, ms, rest, h1, fun h => absurd h h2, h3, h4, h5, ?_⟩
      cases rest with
      | nil => exact .inl rfl
      | cons c r =>
        exact .inr ⟨c, r, rfl, lines_head (fun x hx => hw x (by rw [h1]; simp [hx])) h4.symm⟩
  have hrest : rest.length = 0 ∨ h.buf.length + rest.length ≤ e.cfg.fieldLimit := by
    cases ms with
    | nil => exact .inl (by simpa using h5)
    | cons x ms =>
      have := hlim x (by rw [h1]; simp)
      have h5 : rest.length ≤ x.render.length := h5
      exact .inr (by omega)
  refine ⟨js, ms, rest, h1, h2, h4, by omega, ?_⟩
  refine rq_pause s { h with bytesConsumed := (done ++ a).length, header := some rest }
    { t with
      requestHeaders := ((fieldsOf js).foldl (fun s h => s.1.store s.2 h) (t.requestHeaders, t.requestHeaderRepetitions)).1
      requestHeaderRepetitions :=
        ((fieldsOf js).foldl (fun s h => s.1.store s.2 h) (t.requestHeaders, t.requestHeaderRepetitions)).2 }
    evs _ (win (done ++ a) [] done.length) _ (x := .dataBuffer) (.inr rfl) (by rfl) ?_ (rq_send hcb _ _ _ _ _ _ _ _ hr)
  rw [hrs (st := .headers) hst]
  show requestHeaders e _ = _
  unfold requestHeaders
  rw [rq_state_bind, rq_req, if_neg ha.2]
  dsimp only
  rw [rq_input, win_asSlice, rq_setReq_bind, withRequest_rq _ _ _ _ _ _ _ _ _ h3]
  dsimp only
  have heol : ((b! "\r\n").isPrefixOf rest || (b! "\n").isPrefixOf rest) = false := by
    rcases h6 with rfl | ⟨c, r, rfl, hc⟩
    · rfl
    · have : ∀ c : UInt8, Tchar c → c ≠ 13 ∧ c ≠ 10 := by decide +kernel
      obtain ⟨c1, c2⟩ := this c hc
      simp [List.isPrefixOf, Ne.symm c1, Ne.symm c2]
  rw [heol, if_neg (by simp)]
  have h1 : (win done a done.length).consume a.length = win (done ++ a) [] done.length := by
    have := win_consume done a [] done.length
    rwa [List.append_nil] at this
  rw [rq_consume_bind, h1]
  unfold checkRequestBufferLimit
  rw [M.bind_bind, rq_state_bind, rq_req, if_neg (by
    rintro ⟨g0, g1⟩
    unfold Half.buffered at g1
    have g1 : h.buf.length + 0 + rest.length > e.cfg.fieldLimit := g1
    omega), M.pure_bind_run, rq_setReq_bind]
  rfl

end Model

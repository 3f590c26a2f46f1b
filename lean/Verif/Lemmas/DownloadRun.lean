/-
The rounds of the response state machine on a response whose body, in some content coding, arrives in pieces.
-/
import Verif.Lemmas.SegStages
import Verif.Lemmas.Download

namespace Model

open M Spec Props

/-! ### The head -/

/-- A response with the same status line, for what is known of those. -/
def _root_.Spec.ResponseHead.alone (r : ResponseHead) : Response :=
  { protocol := r.protocol, code := r.code, message := r.message, headers := [], body := .absent }

theorem alone_wellFormed {r : ResponseHead} (h : r.WellFormed) : r.alone.WellFormed true :=
  ⟨h.protocol, h.code, h.message, (fun _ h => by cases h), .inl rfl, by show (0 : Nat) < _; decide, fun _ h => by cases h.1⟩

/-- The header fields. -/
theorem answer_fields {e : Env} {hs : List HeaderLine} (hw : ∀ h ∈ hs, h.WellFormed) (s : Conn) (h : Half) (t : Tx)
    (evs : List Event) (done : Bytes) (q : Nat) (hst : h.state = .headers) (hh : h.header = none)
    (ha : Alive h) (hp : t.responseProgress = .headers)
    (ht0 : t.responseHeaders = []) (ht1 : t.responseHeaderRepetitions = 0) :
    responseStep e (rp s h t evs (win done (renderBlock hs) q)) = (.ok none,
      rp s { h with
          header := none, bytesConsumed := (done ++ renderBlock hs).length
          state := .bodyDetermine, statePrevious := .bodyDetermine }
        { t with
          responseHeaders := storedTable HFlag.FIELD_REPEATED (fieldsOf hs)
          responseHeaderRepetitions := min 64 (extras (fieldsOf hs) (fieldsOf hs).length) }
        evs (win (done ++ renderBlock hs) [] q)) := by
  obtain ⟨rem, eoh, h1, h2, h3⟩ := parseResponseHeaders_block t hs hw [] ⟨fun _ => rfl, fun _ h => by cases h⟩
  rw [ht0, ht1, stored_lines _ hw] at h1
  rw [List.append_nil] at h1 h2 h3
  refine rp_round (s0 := rp s h t evs (win done (renderBlock hs) q)) s { h with
          header := none, bytesConsumed := (done ++ renderBlock hs).length
          state := .bodyDetermine } _ _ _ rfl ?_ ha.1 (by simp)
  rw [hps (st := .headers) hst]
  show responseHeaders e _ = _
  unfold responseHeaders
  rw [rp_state_bind, rp_resp, if_neg ha.2, hh]
  dsimp only [Option.getD]
  rw [List.nil_append, rp_input, win_asSlice, rp_setResp_bind, withResponse_rp _ _ _ _ _ _ _ _ _ h1]
  dsimp only
  have h4 : (win done (renderBlock hs) q).consume (renderBlock hs).length = win (done ++ renderBlock hs) [] q := by
    have := win_consume done (renderBlock hs) [] q
    rwa [List.append_nil] at this
  rw [if_pos h2, win_len, h3, rp_consume_bind, h4]
  unfold responseHeadersDone
  rw [rp_tx_bind, if_pos hp]
  rfl

/-- The status line and the header fields have been read. -/
theorem head_rounds {e : Env} (hcb : CallbacksOK e) {r : ResponseHead} (hr : r.WellFormed) {s : Conn} (hb : BetweenResponses s)
    {t0 : Tx} (hg : s.txs.get s.txs.response = some t0) (hx : t0.index = s.txs.response) (ha : AwaitsBody t0)
    (hi : s.input = .ofBytes r.render) (hlim : r.line.length + 2 ≤ e.cfg.fieldLimit) :
    ∃ h t, Rounds (responseStep e) 3 s (rp s h t [.tx .responseStart s.txs.response, .tx .responseLine s.txs.response]
        (win (r.line ++ [13, 10] ++ renderBlock r.headers) [] (r.line ++ [13, 10]).length)) ∧
      h.state = .bodyDetermine ∧ h.receiver = some .responseHeaderData ∧ BetweenAnswers s h ∧ LineRead t0 r.alone t ∧
      t.responseEntityLen = 0 ∧ t.responseMessageLen = 0 ∧ t.responseContentLength = none ∧ t.responseDecompressor = none ∧
      t.responseHeaders = storedTable HFlag.FIELD_REPEATED (fieldsOf r.headers) := by
  have hal : s.resp.status ≠ .tunnel ∧ s.resp.status ≠ .closed := by
    rcases hb.status with h | h | h <;> rw [h] <;> decide
  obtain ⟨u1, u2, u3, u4, u5⟩ := ha.unanswered.fields
  have u6 : t0.responseMessageLen = 0 := congrArg Tx.responseMessageLen ha.unanswered
  have u7 : t0.responseDecompressor = none := congrArg Tx.responseDecompressor ha.unanswered
  have hw := alone_wellFormed hr
  have hne : r.render ≠ [] := by
    obtain ⟨cs, hc⟩ := response_cons hw.head
    have : r.line = b! "HTTP" ++ cs := hc
    unfold ResponseHead.render
    rw [this]
    simp
  have hi' : s.input = win [] r.render 0 := hi
  have r1 := answer_idle hcb hb hg (by rw [ha.complete]; decide) ha.notProtocol09 hi' hne
  rw [hi'] at r1
  have r2 := answer_line hcb hw.head s
    { s.resp with contentLength := none, bodyDataLeft := none, state := .line, statePrevious := .line }
    { t0 with responseProgress := .line } [.tx .responseStart s.txs.response] []
    (renderBlock r.headers) 0 rfl rfl hb.buf hb.header hal hlim hx
  have r3 := (fun {h t evs done q}
    (_ : responseStep e _ = (.ok none, rp s h t evs (win done (renderBlock r.headers) q))) =>
    answer_fields (e := e) hr.headers s h t evs done q) r2 rfl hb.header hal rfl u1 u2
  exact ⟨_, _, .next r1 (.next r2 (.next r3 (.zero _))), rfl, rfl, ⟨rfl, rfl, rfl⟩,
    ⟨rfl, rfl, rfl, rfl, rfl, rfl, rfl, by show Progress.headers ≠ .complete; decide⟩, u4, u6, u3, u7, rfl⟩

/-- The header data is handed out, the callback is run, and the decompressors are installed. -/
theorem headersDone_coded {e : Env} (hcb : CallbacksOK e) {r : ResponseHead} (hr : r.WellFormed) {layers : List Encoding}
    (hc : r.Coded e.cfg layers) (s : Conn) (h : Half) (t : Tx) (evs : List Event) (done blk rest : Bytes)
    (hrc : h.receiver = some .responseHeaderData)
    (ht : t.responseHeaders = storedTable HFlag.FIELD_REPEATED (fieldsOf r.headers)) (h0 : t.responseDecompressor = none) :
    ∃ c p d, stateResponseHeaders e (rp s h t evs (win (done ++ blk) rest done.length)) = (.ok (),
      rp s { h with receiver := none }
        { t with responseContentEncoding := c, responseContentEncodingProcessing := p, responseDecompressor := d }
        (evs ++ [.data .responseHeaderData s.txs.response (.ofBytes blk), .tx .responseHeaders s.txs.response])
        (win (done ++ blk) rest (done ++ blk).length)) ∧
      Undoes layers [] { t with
        responseContentEncoding := c, responseContentEncodingProcessing := p, responseDecompressor := d } := by
  obtain ⟨c, p, d, h1, h2⟩ := init_coded hr hc ht h0
  refine ⟨c, p, d, ?_, h1 ▸ h2⟩
  unfold stateResponseHeaders
  rw [M.bind_ok (rp_finalizeClear _ _ _ _ hcb done blk rest .responseHeaderData hrc), rp_state_bind, rp_response,
    rp_hook_bind _ _ _ _ _ hcb, rp_tx_bind, rp_put, h1, List.append_assoc]
  rfl

/-- Where the body ends: after `n` bytes, or with the connection. -/
def Delimits (r : ResponseHead) : Option Nat → Prop
  | some n => r.Sized n ∧ n ≠ 0
  | none => r.UntilClose

/-- The state in which the body is read. -/
def bodyState : Option Nat → State
  | some _ => .bodyIdentityClKnown
  | none => .bodyIdentityStreamClose

theorem head_absent {r : ResponseHead} (h : r.WellFormed) (t : Tx) (m : Flags)
    (ht : t.responseHeaders = storedTable m (fieldsOf r.headers)) {name : Bytes} (hn : ∀ x, ¬ r.Has name x) :
    t.responseHeaders.getNocaseNozero name = none := by
  rw [ht]
  exact lookup_none h.headers (fun x hx he => hn x ⟨hx, he⟩) m

theorem head_length {r : ResponseHead} {n : Nat} (h : r.WellFormed) (hs : r.Sized n) (t : Tx) (m : Flags)
    (ht : t.responseHeaders = storedTable m (fieldsOf r.headers)) :
    ∃ x, t.responseHeaders.getNocaseNozero (b! "content-length") = some x ∧ parseContentLength x.value = some n := by
  obtain ⟨y, hy, he⟩ := hs.some
  obtain ⟨x, z, hx, hz, hze, -, hv⟩ := lookup_some h.headers hy he m
  refine ⟨x, by rw [ht]; exact hx, ?_⟩
  have hv' : x.value = Spec.render 10 n := by
    rw [hv ((eqNocase_map _ _).1 (by decide +kernel))]
    exact hs.all z ⟨hz, hze⟩
  have := C08_content_length_render n hs.fits [] [] (by simp) (by simp)
  rw [hv']
  simpa using this

/-- The end of the head. -/
theorem head_determine {e : Env} (hcb : CallbacksOK e) {r : ResponseHead} (hr : r.WellFormed) {layers : List Encoding}
    (hc : r.Coded e.cfg layers) {len : Option Nat} (hl : Delimits r len) (s : Conn)
    (h : Half) (t : Tx) (evs : List Event) (done blk : Bytes)
    (hst : h.state = .bodyDetermine) (ha : Alive h) (hrc : h.receiver = some .responseHeaderData)
    (ht : t.responseHeaders = storedTable HFlag.FIELD_REPEATED (fieldsOf r.headers)) (h0 : t.responseDecompressor = none)
    (hm : t.requestMethodNumber ≠ .connect) (hm2 : t.requestMethodNumber ≠ .head)
    (hn : t.responseStatusNumber = .valid r.code)
    (he : t.requestHeaders.getNocase (b! "expect") = none ∨ ¬ (400 ≤ r.code ∧ r.code ≤ 499)) :
    ∃ fl ct c p d cl, responseStep e (rp s h t evs (win (done ++ blk) [] done.length)) = (.ok none,
      rp s { h with
          contentLength := cl, bodyDataLeft := len, state := bodyState len, statePrevious := bodyState len, receiver := none }
        { t with
          responseContentType := ct, flags := fl, responseContentLength := len.or t.responseContentLength, responseProgress := .body
          responseTransferCoding := .identity
          responseContentEncoding := c, responseContentEncodingProcessing := p, responseDecompressor := d }
        (evs ++ [.data .responseHeaderData s.txs.response (.ofBytes blk), .tx .responseHeaders s.txs.response])
        (win (done ++ blk) [] (done ++ blk).length)) ∧
      Undoes layers [] { t with
          responseContentType := ct, flags := fl, responseContentLength := len.or t.responseContentLength, responseProgress := .body
          responseTransferCoding := .identity
          responseContentEncoding := c, responseContentEncodingProcessing := p, responseDecompressor := d } := by
  cases len with
  | some n =>
    obtain ⟨hs, hn0⟩ : r.Sized n ∧ n ≠ 0 := hl
    obtain ⟨x, hx, hx'⟩ := head_length hr hs t _ ht
    have hx'' : parseContentLength x.value = some (List.replicate n (0 : UInt8)).length := by rw [List.length_replicate]; exact hx'
    have hne : List.replicate n (0 : UInt8) ≠ [] := by simpa using hn0
    obtain ⟨c, p, d, h1, h2⟩ := headersDone_coded hcb hr hc s
      { h with contentLength := some n, bodyDataLeft := some n, state := .bodyIdentityClKnown }
      { t with
        responseContentType := t.responseType.or t.responseContentType
        flags := if isSet x.flags Flag.FIELD_REPEATED then setFlag t.flags Flag.REQUEST_SMUGGLING else t.flags
        responseContentLength := some n, responseProgress := .body, responseTransferCoding := .identity } evs done blk [] hrc ht h0
    refine ⟨_, _, c, p, d, some n, ?_, h2⟩
    refine rp_round (s0 := rp s h t evs (win (done ++ blk) [] done.length)) s
      { h with
        contentLength := some n, bodyDataLeft := some n, state := .bodyIdentityClKnown, receiver := none } _ _ _ rfl ?_ ha.1
      (by simp)
    rw [hps (st := .bodyDetermine) hst]
    show responseBodyDetermine e _ = _
    rw [determine_rp s h t evs _ hm hn hr.code.1 he, head_absent hr t _ ht hs.notChunked, hx,
      framing_rp s h t evs _ _ _ hm2 hst (.inr rfl)]
    unfold responseFraming
    rw [M.bind_bind, rp_tx_bind, M.bind_bind, rp_put_bind, show announcesChunked none = false from rfl, if_neg (by simp)]
    rw [M.bind_ok (length_rp _ _ _ _ _ hx'')]
    simp only [if_neg hne, List.length_replicate]
    exact h1
  | none =>
    have hs : r.UntilClose := hl
    obtain ⟨c, p, d, h1, h2⟩ := headersDone_coded hcb hr hc s
      { h with bodyDataLeft := none, state := .bodyIdentityStreamClose }
      { t with
        responseContentType := t.responseType.or t.responseContentType
        responseProgress := .body, responseTransferCoding := .identity } evs done blk [] hrc ht h0
    refine ⟨_, _, c, p, d, h.contentLength, ?_, h2⟩
    have hd := rp_round (e := e) (s0 := rp s h t evs (win (done ++ blk) [] done.length)) s
      { h with bodyDataLeft := none, state := .bodyIdentityStreamClose, receiver := none } _ _ _ rfl (by
        rw [hps (st := .bodyDetermine) hst]
        show responseBodyDetermine e _ = _
        rw [determine_rp s h t evs _ hm hn hr.code.1 he, head_absent hr t _ ht hs.notChunked, head_absent hr t _ ht hs.noLength]
        unfold responseBody responseNoBody
        rw [M.bind_bind, rp_tx_bind, if_neg (by
          have := hr.code
          have := hs.code
          rw [hn]
          simp [ResponseNumber.eqNum, ResponseNumber.inRange, hm2]
          omega), M.pure_bind_run, rp_state_bind, rp_resp, hst]
        show (responseFraming e none none >>= fun _ => stateResponseHeaders e) _ = _
        unfold responseFraming
        rw [M.bind_bind, rp_tx_bind, M.bind_bind, rp_put_bind, show announcesChunked none = false from rfl, if_neg (by simp)]
        dsimp only
        have hbr : (indexOfNocase (t.responseType.getD []) (b! "multipart/byteranges")).isSome = false := by
          refine Bool.eq_false_iff.2 fun hbr => ?_
          obtain ⟨x, hx, hxr⟩ := (byteRanges_iff t).1 hbr
          rcases hs.type with hty | ⟨v, hv, hno⟩
          · rw [head_absent hr t _ ht hty] at hx
            cases hx
          · obtain ⟨y, hy, rfl⟩ := lookup_hasOne hr hv HFlag.FIELD_REPEATED
            rw [ht, hy] at hx
            cases hx
            exact hno hxr
        rw [hbr]
        unfold responseUntilClose
        rw [if_neg (by simp), M.bind_bind, rp_modify_bind, rp_setResp_bind]
        exact h1) ha.1 (by simp)
    exact hd

/-! ### The body -/

/-- The parser, while the body of the response to `t0` is being read: the pieces in `fed` have been read. -/
structure Reads {C : Codecs} (Ds : List (Decoder C)) (layers : List Encoding) (t0 : Tx) (r : ResponseHead)
    (len : Option Nat) (fed : List Bytes) (h : Half) (t : Tx) (ds : List Bytes) : Prop where
  state : h.state = bodyState len
  left : h.bodyDataLeft = len.map (· - fed.flatten.length)
  buf : h.buf = []
  header : h.header = none
  receiver : h.receiver = none
  line : LineRead t0 r.alone t
  headers : t.responseHeaders = storedTable HFlag.FIELD_REPEATED (fieldsOf r.headers)
  coding : t.responseTransferCoding = .identity
  length : t.responseContentLength = len
  receives : Receives Ds layers fed t
  decoded : ds.flatten = decodeAll Ds fed.flatten
  filled : ∀ d ∈ ds, d ≠ []

/-- The callbacks run for the head and the body so far. -/
def _root_.Spec.ResponseHead.sofar (r : ResponseHead) (k : Nat) (ds : List Bytes) : List Event :=
  r.callbacks k ++ ds.flatMap (answerBodyCallbacks k)

theorem sofar_append (r : ResponseHead) (k : Nat) (ds ds' : List Bytes) :
    r.sofar k ds ++ ds'.flatMap (answerBodyCallbacks k) = r.sofar k (ds ++ ds') := by
  unfold ResponseHead.sofar
  rw [List.append_assoc, List.flatMap_append]

/-- Asking for more does not change what has been read. -/
theorem Reads.status {C : Codecs} {Ds : List (Decoder C)} {layers : List Encoding} {t0 : Tx} {r : ResponseHead}
    {len : Option Nat} {fed : List Bytes} {h : Half} {t : Tx} {ds : List Bytes} (hr : Reads Ds layers t0 r len fed h t ds)
    (st : StreamState) (b : Nat) : Reads Ds layers t0 r len fed { h with status := st, bytesConsumed := b } t ds :=
  ⟨hr.state, hr.left, hr.buf, hr.header, hr.receiver, hr.line, hr.headers, hr.coding, hr.length, hr.receives, hr.decoded, hr.filled⟩

/-- A round in which more data is asked for. -/
theorem rp_more {e : Env} {s0 : Conn} (s : Conn) (h : Half) (t : Tx) (evs : List Event) (inp : PData)
    (hg : s0.input.isGap = false) (h1 : handleResponseState e s0 = (.error (.status .data), rp s h t evs inp))
    (hr : h.receiver = none) :
    responseStep e s0 = (.ok (some .data), rp s { h with status := .data } t evs inp.callbackData.2) :=
  responseStep_data (by rw [hg]; rfl) (.inl h1) hr (rp_get _ _ _ _ _)

/-- The number of rounds is sufficient. -/
theorem responseLoop_enough {e : Env} {b : Bytes} {s s1 s2 : Conn} {k : Nat} (hok : RespOK e (responseFed b s))
    (hr : Rounds (responseStep e) k (responseFed b s) s1) {st : StreamState} (h2 : responseStep e s1 = (.ok (some st), s2)) :
    responseLoop e (16 * (b.length + 2 * s.resp.buf.length + 2)) (responseFed b s) = (.ok (some st), s2) := by
  have hk : k < 16 * (b.length + 2 * s.resp.buf.length + 2) := by
    have := (response_rounds e hr hok).2
    have := respMeasure_lt_rounds (responseFed b s)
    have hx : responseRounds (responseFed b s) = 16 * (b.length + 2 * s.resp.buf.length + 2) := by
      unfold responseRounds
      rw [show (responseFed b s).input.len = b.length from toPData_len (.data b)]
      rfl
    omega
  obtain ⟨N, hN⟩ : ∃ N, 16 * (b.length + 2 * s.resp.buf.length + 2) = k + (N + 1) :=
    ⟨16 * (b.length + 2 * s.resp.buf.length + 2) - k - 1, by omega⟩
  rw [hN, responseLoop_rounds _ hr]
  exact responseLoop_some (by omega) h2

/-- The call with the head. -/
theorem call_head {e : Env} (hcb : CallbacksOK e) {r : ResponseHead} (hr : r.WellFormed) {layers : List Encoding}
    (hc : r.Coded e.cfg layers) {len : Option Nat} (hl : Delimits r len) {C : Codecs} {Ds : List (Decoder C)}
    {s : Conn} (hb : BetweenResponses s)
    {t0 : Tx} (hg : s.txs.get s.txs.response = some t0) (hx : t0.index = s.txs.response) (ha : AwaitsBody t0)
    (hlim : r.line.length + 2 ≤ e.cfg.fieldLimit) :
    ∃ c h t inp, responseData e (.ofBytes r.render) s = (.ok (some .data),
        rp { s with responseDataCounter := c } { h with status := .data } t (r.sofar s.txs.response []) inp) ∧
      Reads Ds layers t0 r len [] h t [] := by
  have hst : s.resp.status ≠ .stop ∧ s.resp.status ≠ .error ∧ s.resp.status ≠ .tunnel ∧ s.resp.status ≠ .closed := by
    rcases hb.status with h | h | h <;> rw [h] <;> decide
  have hne : r.render ≠ [] := by
    obtain ⟨cs, hc⟩ := response_cons (alone_wellFormed hr).head
    have : r.line = b! "HTTP" ++ cs := hc
    unfold ResponseHead.render
    rw [this]
    simp
  rw [responseData_data hne hst.1 hst.2.1 hst.2.2.1]
  have hb1 : BetweenResponses (responseFed r.render s) := ⟨hb.state, hb.buf, hb.header, hb.receiver, hb.status, hb.notBlocked⟩
  obtain ⟨h1, t1, r1, hst1, hrc1, hc1, hh1, hel, hml, hcl, hdc, htab⟩ := head_rounds hcb hr hb1 hg hx ha rfl hlim
  have hal1 : Alive h1 := by unfold Alive; rw [hc1.status]; exact ⟨hst.2.2.1, hst.2.2.2⟩
  obtain ⟨fl, ct, c, p, d, cl, r2, hu⟩ := head_determine hcb hr hc hl (responseFed r.render s) h1 t1
    [.tx .responseStart s.txs.response, .tx .responseLine s.txs.response] (r.line ++ [13, 10]) (renderBlock r.headers) hst1 hal1 hrc1
    htab hdc (by rw [hh1.method]; exact ha.notConnect) (by rw [hh1.method]; exact ha.notHead) hh1.statusNumber
    (by rw [hh1.requestHeaders]; exact .inl ha.noExpect)
  rw [hcl, Option.or_none] at r2 hu
  have hok : RespOK e (responseFed r.render s) := by
    refine ⟨toPData_wf (.data r.render), rfl, Nat.zero_le _, fun h => absurd h hst.2.2.2, ?_⟩
    show s.resp.buf.length + (s.resp.header.getD []).length ≤ _
    rw [hb.buf, hb.header]
    exact Nat.zero_le _
  generalize hh2 : ({ h1 with
    contentLength := cl, bodyDataLeft := len, state := bodyState len, statePrevious := bodyState len, receiver := none } : Half) = h2
    at r2
  generalize ht2 : ({ t1 with
          responseContentType := ct, flags := fl, responseContentLength := len, responseProgress := .body
          responseTransferCoding := .identity
          responseContentEncoding := c, responseContentEncodingProcessing := p, responseDecompressor := d } : Tx) = t2
    at r2 hu
  have r3 : ∀ evs done q, responseStep e (rp (responseFed r.render s) h2 t2 evs (win done [] q)) = (.ok (some .data),
      rp (responseFed r.render s) { h2 with status := .data } t2 evs (win done [] q).callbackData.2) := by
    intro evs done q
    refine rp_more _ _ _ _ _ rfl ?_ (by rw [← hh2])
    have hal2 : Alive h2 := by rw [← hh2]; exact hal1
    cases len with
    | some n =>
      rw [hps (st := .bodyIdentityClKnown) (by rw [rp_resp, ← hh2]; rfl)]
      show responseBodyIdentityClKnown e _ = _
      unfold responseBodyIdentityClKnown
      rw [rp_state_bind, rp_resp, if_neg hal2.2]
      unfold responseIdentityOpen
      rw [rp_state_bind, rp_resp, show h2.bodyDataLeft = some n from by rw [← hh2]]
      dsimp only
      rw [rp_input, win_len, List.length_nil, Nat.zero_min, if_pos rfl]
      rfl
    | none =>
      rw [hps (st := .bodyIdentityStreamClose) (by rw [rp_resp, ← hh2]; rfl)]
      show responseBodyIdentityStreamClose e _ = _
      unfold responseBodyIdentityStreamClose
      have h4 : responseStreamData e (rp (responseFed r.render s) h2 t2 evs (win done [] q)) =
          (.ok (), rp (responseFed r.render s) h2 t2 evs (win done [] q)) := by
        unfold responseStreamData
        rw [rp_state_bind, rp_input, win_isGap, if_neg (by simp), win_isEmpty, if_pos (by rfl)]
        rfl
      rw [M.bind_ok h4, rp_state_bind, rp_resp, if_neg hal2.2]
      rfl
  have r4 := responseLoop_enough hok (r1.append (.next r2 (.zero _))) (r3 _ _ _)
  refine ⟨_, h2, t2, _, r4, ?_⟩
  subst hh2 ht2
  refine ⟨rfl, ?_, hc1.buf, hc1.header, rfl,
    ⟨hh1.same, hh1.line, hh1.protocol, hh1.protocolNumber, hh1.status, hh1.statusNumber, hh1.message,
      by show Progress.body ≠ .complete; decide⟩, htab, rfl, rfl, ⟨hu, hml, ?_⟩, ?_, fun _ h => by cases h⟩
  · cases len <;> rfl
  · show t1.responseEntityLen = (decodeAll Ds []).length
    rw [hel, decodeAll_nil]
    rfl
  · exact (decodeAll_nil Ds).symm

theorem decodeAll_prefix {C : Codecs} (Ds : List (Decoder C)) : ∀ {x y : Bytes}, ValidAll Ds (x ++ y) →
    decodeAll Ds x <+: decodeAll Ds (x ++ y) := by
  induction Ds with
  | nil => exact fun _ => List.prefix_append _ _
  | cons D Ds ih =>
    intro x y h
    obtain ⟨z, hz⟩ := D.decode_prefix h.1
    have h2 := h.2
    rw [← hz] at h2
    show decodeAll Ds (D.decode x) <+: decodeAll Ds (D.decode (x ++ y))
    rw [← hz]
    exact ih h2

theorem decodeEnd_prefix {C : Codecs} (Ds : List (Decoder C)) : ∀ {x : Bytes}, ValidEnd Ds x →
    decodeAll Ds x <+: decodeEnd Ds x := by
  induction Ds with
  | nil => exact fun _ => List.prefix_refl _
  | cons D Ds ih =>
    intro x h
    exact (decodeAll_prefix Ds h.2.all).trans (ih h.2)

/-- What is assumed of the decoding libraries, the codings and the limits while a body is read. -/
structure Decodable {C : Codecs} (e : Env) (lzma : Bool) (layers : List Encoding) (Ds : List (Decoder C)) (body : Bytes) :
    Prop where
  callbacks : CallbacksOK e
  decompresses : Decompresses e C lzma
  decoders : DecodersFor C lzma layers.reverse Ds
  valid : ValidEnd Ds body
  length : body.length < 2 ^ 64
  decodedLength : (decodeEnd Ds body).length < 2 ^ 64

theorem rp_piece {C : Codecs} {e : Env} {lzma : Bool} {layers : List Encoding} {Ds : List (Decoder C)} {fed rest : List Bytes}
    {b : Bytes} (hd : Decodable e lzma layers Ds (fed.flatten ++ b ++ rest.flatten)) (hne : b ≠ [])
    (hsz : layers ≠ [] → SizesAllowed e.cfg.compressionOptions Ds (fed ++ b :: rest))
    {t0 : Tx} {r : ResponseHead} {len : Option Nat} {h : Half} {t : Tx} {ds : List Bytes}
    (hr : Reads Ds layers t0 r len fed h t ds) (s : Conn) (h' : Half) (inp : PData) :
    ∃ t' ds', responseBodyData e (some b) (rp s h' t (r.sofar s.txs.response ds) inp) =
        (.ok (), rp s h' t' (r.sofar s.txs.response ds') inp) ∧
      ∀ h'', h''.state = bodyState len → h''.bodyDataLeft = len.map (· - (fed.flatten.length + b.length)) → h''.buf = h.buf →
        h''.header = h.header → h''.receiver = h.receiver → Reads Ds layers t0 r len (fed ++ [b]) h'' t' ds' := by
  have hv := hd.valid.all
  have hv' := hv.start
  have hlen : (decodeAll Ds (fed.flatten ++ b)).length < 2 ^ 64 := by
    have h1 := decodeAll_prefix Ds hv
    have h2 := decodeEnd_prefix Ds hd.valid
    have := (h1.trans h2).length_le
    have := hd.decodedLength
    omega
  obtain ⟨t', ds1, h1, ⟨ml, el, dc, rfl⟩, h3, h4, h5⟩ := rp_codedData hd.callbacks hd.decompresses hd.decoders s h' t
    (r.sofar s.txs.response ds) inp hr.receives b hne hv' (by
      have := hd.length
      rw [List.length_append] at this
      omega) hlen (fun h0 => by
      have := (hsz h0).onTheWay (fed ++ [b]) rest (by simp)
      simpa using this)
  refine ⟨_, ds ++ ds1, by rw [h1, sofar_append], ?_⟩
  intro h'' e1 e2 e3 e4 e5
  refine ⟨e1, ?_, by rw [e3, hr.buf], by rw [e4, hr.header], by rw [e5, hr.receiver],
    ⟨hr.line.same, hr.line.line, hr.line.protocol, hr.line.protocolNumber, hr.line.status, hr.line.statusNumber,
      hr.line.message, hr.line.progress⟩, hr.headers, hr.coding, hr.length, h5, ?_, ?_⟩
  · rw [e2]
    have : (fed ++ [b]).flatten.length = fed.flatten.length + b.length := by
      rw [List.flatten_append, List.length_append]
      simp
    rw [this]
  · rw [List.flatten_append, hr.decoded, h3]
    simp
  · intro d hd'
    rcases List.mem_append.1 hd' with hd' | hd'
    · exact hr.filled d hd'
    · exact h4 d hd'

theorem identityOpen_rp {e : Env} {s : Conn} {h : Half} {t t' : Tx} {evs evs' : List Event} {b : Bytes} {left : Nat}
    (h1 : responseBodyData e (some b) (rp s h t evs (win [] b 0)) = (.ok (), rp s h t' evs' (win [] b 0)))
    (hl : h.bodyDataLeft = some left) (hst : h.status ≠ .closed) (hle : b.length ≤ left) (hne : b ≠ []) :
    responseBodyIdentityClKnown e (rp s h t evs (win [] b 0)) =
      (if left - b.length > 0 then fail .data else do
        setResp ({ · with state := .finalize })
        responseBodyData e none)
        (rp s { h with bytesConsumed := b.length, bodyDataLeft := some (left - b.length) } t' evs' (win b [] 0)) := by
  have hpos : b.length ≠ 0 := by rw [ne_eq, List.length_eq_zero_iff]; exact hne
  have hcons : (win [] b 0).consume b.length = win b [] 0 := by
    have := win_consume [] b [] 0
    rwa [List.append_nil, List.nil_append] at this
  unfold responseBodyIdentityClKnown
  rw [rp_state_bind, rp_resp, if_neg hst]
  unfold responseIdentityOpen
  rw [rp_state_bind, rp_resp, hl]
  dsimp only
  rw [rp_input, win_len, Nat.min_eq_left hle, if_neg hpos]
  unfold responseIdentityData
  rw [M.bind_bind, rp_state_bind, rp_input, win_isGap, if_neg (by simp), M.bind_bind]
  rw [M.bind_ok (show inputPrefix b.length (rp s h t evs (win [] b 0)) = (.ok b, _) from by
    unfold inputPrefix
    rw [rp_input, win_asSlice, if_pos (Nat.le_refl _), List.take_length])]
  rw [M.bind_ok h1, rp_consume_bind, hcons, rp_setResp_bind]
  rfl

/-- A call with a piece of the body that is not the last, as far as the length tells. -/
theorem call_piece {C : Codecs} {e : Env} {lzma : Bool} {layers : List Encoding} {Ds : List (Decoder C)} {fed rest : List Bytes}
    {b : Bytes} (hd : Decodable e lzma layers Ds (fed.flatten ++ b ++ rest.flatten)) (hne : b ≠ [])
    (hsz : layers ≠ [] → SizesAllowed e.cfg.compressionOptions Ds (fed ++ b :: rest))
    {t0 : Tx} {r : ResponseHead} {len : Option Nat} (hl : ∀ n, len = some n → fed.flatten.length + b.length < n)
    {h : Half} {t : Tx} {ds : List Bytes}
    (hr : Reads Ds layers t0 r len fed h t ds) (hst : h.status = .data) (s : Conn) (inp : PData) :
    ∃ c h' t' ds' inp', responseData e (.ofBytes b) (rp s h t (r.sofar s.txs.response ds) inp) =
        (.ok (some .data), rp { s with responseDataCounter := c } h' t' (r.sofar s.txs.response ds') inp') ∧
      Reads Ds layers t0 r len (fed ++ [b]) h' t' ds' ∧ h'.status = .data := by
  rw [responseData_data hne (by rw [rp_resp, hst]; decide) (by rw [rp_resp, hst]; decide) (by rw [rp_resp, hst]; decide)]
  have hpos : b.length ≠ 0 := by rw [ne_eq, List.length_eq_zero_iff]; exact hne
  generalize hs1 : ({ s with responseDataCounter := wrapAdd s.responseDataCounter b.length } : Conn) = s1
  have hfed : responseFed b (rp s h t (r.sofar s.txs.response ds) inp) =
      rp s1 { h with bytesConsumed := 0 } t (r.sofar s1.txs.response ds) (win [] b 0) := by subst hs1; rfl
  have hn0 : 16 * (b.length + 2 * (rp s h t (r.sofar s.txs.response ds) inp).resp.buf.length + 2) ≠ 0 := by omega
  have hcons : (win [] b 0).consume b.length = win b [] 0 := by
    have := win_consume [] b [] 0
    rwa [List.append_nil, List.nil_append] at this
  rw [hfed]
  have hk : s.txs.response = s1.txs.response := by subst hs1; rfl
  rw [hk]
  cases len with
  | some n =>
    have hlt := hl n rfl
    have hleft : h.bodyDataLeft = some (n - fed.flatten.length) := hr.left
    obtain ⟨t', ds', h1, h2⟩ := rp_piece hd hne hsz hr s1 { h with bytesConsumed := 0 } (win [] b 0)
    refine ⟨wrapAdd s.responseDataCounter b.length,
      { h with bytesConsumed := b.length, bodyDataLeft := some (n - fed.flatten.length - b.length), status := .data }, t', ds', (win b [] 0).callbackData.2,
      responseLoop_some hn0 ?_, h2 _ hr.state (by simp [Nat.sub_sub]) rfl rfl rfl, rfl⟩
    rw [hs1]
    refine (rp_more s1 { h with bytesConsumed := b.length, bodyDataLeft := some (n - fed.flatten.length - b.length) } t'
      (r.sofar s1.txs.response ds') (win b [] 0) rfl ?_ hr.receiver)
    rw [hps (st := .bodyIdentityClKnown) hr.state]
    show responseBodyIdentityClKnown e _ = _
    rw [identityOpen_rp h1 hleft (by dsimp only; rw [hst]; decide) (by omega) hne, if_pos (by omega)]
    dsimp only
    rfl
  | none =>
    obtain ⟨t', ds', h1, h2⟩ := rp_piece hd hne hsz hr s1 { h with bytesConsumed := 0 } (win [] b 0)
    refine ⟨wrapAdd s.responseDataCounter b.length,
      { h with bytesConsumed := b.length, status := .data }, t', ds', (win b [] 0).callbackData.2,
      responseLoop_some hn0 ?_, h2 _ hr.state hr.left rfl rfl rfl, rfl⟩
    rw [hs1]
    refine (rp_more s1 { h with bytesConsumed := b.length } t'
      (r.sofar s1.txs.response ds') (win b [] 0) rfl ?_ hr.receiver)
    rw [hps (st := .bodyIdentityStreamClose) hr.state]
    show responseBodyIdentityStreamClose e _ = _
    unfold responseBodyIdentityStreamClose responseStreamData
    rw [M.bind_bind, rp_state_bind, rp_input, win_isGap, if_neg (by simp), win_isEmpty, if_neg (by simpa using hpos),
      win_unconsumed, M.bind_bind, M.bind_ok h1, win_len, rp_consume_bind, hcons, rp_state_bind, rp_resp,
      if_neg (by dsimp only; rw [hst]; decide)]
    rfl

/-- The end of a response whose body ends with these callbacks. -/
theorem complete_with {e : Env} (hcb : CallbacksOK e) (s : Conn) (h : Half) (t t' : Tx) (evs evs' : List Event) (inp : PData)
    (hr : h.receiver = none) (hst : h.status ≠ .dataOther) (hblk : s.responseDataOtherAtTxEnd = false)
    (hp : t.responseProgress ≠ .complete) (hnb : t.responseTransferCoding ≠ .noBody)
    (hbd : responseBodyData e none (rp s h { t with responseProgress := .complete } evs inp) = (.ok (), rp s h t' evs' inp))
    (hc' : t'.isComplete = true) :
    stateResponseComplete e (rp s h t evs inp) = (.ok (),
      answered e.cfg.txAutoDestroy s { h with state := .idle } t'
        (evs' ++ [.tx .responseComplete s.txs.response, .tx .transactionComplete s.txs.response]) inp) := by
  have h1 : (M.when (t.responseTransferCoding != .noBody) (do
        let _ ← attempt (responseBodyData e none)
        pure ())) (rp s h { t with responseProgress := .complete } evs inp) = (.ok (), rp s h t' evs' inp) := by
    rw [show (t.responseTransferCoding != .noBody) = true from by simpa using hnb]
    show (attempt (responseBodyData e none) >>= fun _ => pure ()) _ = _
    rw [M.bind_ok (M.attempt_ok hbd)]
    rfl
  have h2 : completeResponse e t (rp s h t evs inp) = (.ok (),
      rp s h t' (evs' ++ [.tx .responseComplete s.txs.response]) inp) := by
    unfold completeResponse
    rw [rp_put_bind, M.bind_ok h1, rp_state_bind, rp_response, rp_hook_bind _ _ _ _ _ hcb,
      rp_finalizeClear_none _ _ _ _ _ hr]
  unfold stateResponseComplete
  rw [rp_tx_bind, show (t.responseProgress != .complete) = true from by simpa using hp]
  rw [M.bind_ok (show M.when true (completeResponse e t) _ = _ from h2)]
  have h3 : requestParserCheckWaiting (rp s h t' (evs' ++ [.tx .responseComplete s.txs.response]) inp) =
      (.ok (), rp s h t' (evs' ++ [.tx .responseComplete s.txs.response]) inp) := by
    unfold requestParserCheckWaiting
    rw [rp_state_bind, rp_resp, if_neg (fun x => hst x.1), if_neg (by
      show ¬ s.responseDataOtherAtTxEnd = true
      rw [hblk]; simp)]
    rfl
  rw [M.bind_ok h3, rp_state_bind, rp_response]
  have h4 : finalizeTx e s.txs.response (rp s h t' (evs' ++ [.tx .responseComplete s.txs.response]) inp) =
      (.ok (), rp s h t' (evs' ++ [.tx .responseComplete s.txs.response, .tx .transactionComplete s.txs.response]) inp) := by
    unfold finalizeTx
    rw [rp_state_bind, rp_get]
    dsimp only
    rw [hc']
    refine (rp_hook s h t' _ inp hcb .transactionComplete).trans ?_
    rw [List.append_assoc]
    rfl
  rw [M.bind_ok h4]
  have h5 : ∀ evs'', ((rp s h t' evs'' inp).txs).responseNext e.cfg.txAutoDestroy = answeredTxs e.cfg.txAutoDestroy s.txs t' := by
    intro evs''
    unfold Txs.responseNext Txs.checkFree answeredTxs
    rw [rp_response, rp_get]
    dsimp only
    rw [hc']
    cases e.cfg.txAutoDestroy <;> rfl
  unfold responseNext
  rw [M.bind_modify, h5]
  rfl

/-- The transaction when the body has ended. -/
structure Finished (t0 : Tx) (r : ResponseHead) (len : Option Nat) (coded decoded : Nat) (p : Progress) (t : Tx) : Prop where
  ended : Ended t
  progress : t.responseProgress = p
  records : RecordsDownload { t with responseProgress := .complete } r len coded decoded
  same : requestSide t = requestSide t0

theorem Finished.complete {t0 : Tx} {r : ResponseHead} {len : Option Nat} {coded decoded : Nat} {p : Progress} {t : Tx}
    (h : Finished t0 r len coded decoded p t) : Finished t0 r len coded decoded .complete { t with responseProgress := .complete } :=
  ⟨h.ended, rfl, h.records, h.same⟩

theorem Finished.isComplete {t0 : Tx} {r : ResponseHead} {len : Option Nat} {coded decoded : Nat} {t : Tx}
    (h : Finished t0 r len coded decoded .complete t) (h0 : t0.requestProgress = .complete) : t.isComplete = true := by
  have h1 : t.requestProgress = t0.requestProgress := by
    have := congrArg Tx.requestProgress h.same
    exact this
  simp [Tx.isComplete, h1, h0, h.progress]

/-- The callbacks when the body has ended. -/
theorem rp_last {C : Codecs} {e : Env} {lzma : Bool} {layers : List Encoding} {Ds : List (Decoder C)} {fed : List Bytes}
    (hd : Decodable e lzma layers Ds fed.flatten)
    (hsz : layers ≠ [] → SizesAllowed e.cfg.compressionOptions Ds fed)
    {t0 : Tx} {r : ResponseHead} (hw : r.WellFormed) {len : Option Nat} {h : Half} {t : Tx} {ds : List Bytes}
    (hr : Reads Ds layers t0 r len fed h t ds) (s : Conn) (h' : Half) (inp : PData) (p : Progress) :
    ∃ (t' : Tx) (ds' : List Bytes), responseBodyData e none (rp s h' { t with responseProgress := p } (r.sofar s.txs.response ds) inp) =
        (.ok (), rp s h' t' (r.sofar s.txs.response ds') inp) ∧
      ds'.flatten = decodeEnd Ds fed.flatten ∧ (∀ d ∈ ds', d ≠ []) ∧
      Finished t0 r len fed.flatten.length (decodeEnd Ds fed.flatten).length p t' := by
  obtain ⟨t', ds1, h1, ⟨el, d, rfl⟩, h3, h4, h5, h6⟩ := rp_codedEnd hd.callbacks hd.decompresses hd.decoders s h'
    { t with responseProgress := p } (r.sofar s.txs.response ds) inp
    ⟨hr.receives.undoes, hr.receives.message, hr.receives.entity⟩ hd.valid hd.length hd.decodedLength (fun h0 => (hsz h0).atTheEnd)
  refine ⟨_, ds ++ ds1, by rw [h1, sofar_append], by rw [List.flatten_append, hr.decoded, h3], ?_, h5, rfl, ?_, hr.line.same⟩
  · intro d hd'
    rcases List.mem_append.1 hd' with hd' | hd'
    · exact hr.filled d hd'
    · exact h4 d hd'
  · refine ⟨hr.line.line, hr.line.protocol, ?_, hr.line.status, hr.line.statusNumber, hr.line.message, hr.headers, hr.coding,
      hr.length, hr.receives.message, h6, rfl⟩
    obtain ⟨p', hp⟩ := hw.protocol
    show (r.protocol, t.responseProtocolNumber) ∈ protocols
    rw [hr.line.protocolNumber]
    show (r.protocol, parseProtocol r.protocol) ∈ protocols
    rw [(protocol_facts _ hp).1]
    exact hp

/-- After a call that was told of the end of the response. -/
theorem finished_download {e : Env} {t0 : Tx} {r : ResponseHead} {len : Option Nat} {coded decoded : Bytes} {t : Tx} {s s1 : Conn}
    {h : Half} {ds : List Bytes} {inp : PData}
    (hf : Finished t0 r len coded.length decoded.length .complete t) (hds : ds.flatten = decoded) (hne : ∀ d ∈ ds, d ≠ [])
    (hg : s.txs.get s.txs.response = some t0)
    (hk : s1.txs.response = s.txs.response) (htr : s1.trace = s.trace) {s' : Conn}
    (hi : AnswersDone e.cfg.txAutoDestroy (answered e.cfg.txAutoDestroy s1 h t (r.sofar s1.txs.response ds ++
      [.tx .responseComplete s1.txs.response, .tx .transactionComplete s1.txs.response]) inp) s' []) :
    Downloaded e.cfg.txAutoDestroy s s' r len coded decoded := by
  have hget : s'.txs.get s.txs.response = if e.cfg.txAutoDestroy then none else some t := by
    rw [hi.others _ (.inl (by
      show s.txs.response < s1.txs.response + 1
      omega))]
    show (answeredTxs e.cfg.txAutoDestroy s1.txs t).get _ = _
    rw [← hk]
    unfold answeredTxs
    cases e.cfg.txAutoDestroy with
    | true =>
      show ((s1.txs.set s1.txs.response t).remove s1.txs.response).get s1.txs.response = _
      rw [Txs.get_remove, if_pos rfl]
      rfl
    | false =>
      show (s1.txs.set s1.txs.response t).get s1.txs.response = _
      rw [Txs.get_set, if_pos rfl]
      rfl
  refine ⟨⟨ds, hds, hne, ?_⟩, ?_, ?_, hi.between⟩
  · rw [hi.trace]
    show s1.trace ++ _ ++ [] = _
    rw [htr, hk, List.append_nil]
    unfold ResponseHead.sofar
    rw [List.append_assoc]
  · rw [hget]
    cases e.cfg.txAutoDestroy with
    | true => rfl
    | false =>
      refine ⟨t0, t, hg, rfl, ?_, hf.same⟩
      have := hf.records
      rwa [show ({ t with responseProgress := .complete } : Tx) = t from by rw [← hf.progress]] at this
  · rw [hi.response]
    show s1.txs.response + 1 + 0 = _
    rw [hk]

/-- The call with the last piece of a body whose length was announced. -/
theorem call_last {C : Codecs} {e : Env} {lzma : Bool} {layers : List Encoding} {Ds : List (Decoder C)} {fed : List Bytes}
    {b : Bytes} (hd : Decodable e lzma layers Ds (fed.flatten ++ b)) (hne : b ≠ [])
    (hsz : layers ≠ [] → SizesAllowed e.cfg.compressionOptions Ds (fed ++ [b]))
    {t0 : Tx} (h0 : t0.requestProgress = .complete) {r : ResponseHead} (hw : r.WellFormed) {n : Nat} (hl : fed.flatten.length + b.length = n)
    {h : Half} {t : Tx} {ds : List Bytes}
    (hr : Reads Ds layers t0 r (some n) fed h t ds) (hst : h.status = .data) (s0 s : Conn) (inp : PData)
    (hg : s0.txs.get s0.txs.response = some t0) (hk : s.txs.response = s0.txs.response) (htr : s.trace = s0.trace)
    (hblk : s.responseDataOtherAtTxEnd = false) :
    ∃ s', responseData e (.ofBytes b) (rp s h t (r.sofar s.txs.response ds) inp) = (.ok (some .data), s') ∧
      Downloaded e.cfg.txAutoDestroy s0 s' r (some n) (fed.flatten ++ b) (decodeEnd Ds (fed.flatten ++ b)) := by
  have hfl : (fed ++ [b]).flatten = fed.flatten ++ b := by simp
  rw [responseData_data hne (by rw [rp_resp, hst]; decide) (by rw [rp_resp, hst]; decide) (by rw [rp_resp, hst]; decide)]
  have hpos : b.length ≠ 0 := by rw [ne_eq, List.length_eq_zero_iff]; exact hne
  generalize hs1 : ({ s with responseDataCounter := wrapAdd s.responseDataCounter b.length } : Conn) = s1
  have hk1 : s1.txs.response = s.txs.response := by subst hs1; rfl
  have hfed : responseFed b (rp s h t (r.sofar s.txs.response ds) inp) =
      rp s1 { h with bytesConsumed := 0 } t (r.sofar s1.txs.response ds) (win [] b 0) := by subst hs1; rfl
  have hleft : h.bodyDataLeft = some (n - fed.flatten.length) := hr.left
  obtain ⟨t1, ds1, h1, h2⟩ := rp_piece (rest := []) (by simpa using hd) hne hsz hr s1 { h with bytesConsumed := 0 } (win [] b 0)
  generalize hh1 : ({ h with bytesConsumed := b.length, bodyDataLeft := some 0, state := .finalize } : Half) = h1'
  have hr1 : Reads Ds layers t0 r (some n) (fed ++ [b]) { h1' with state := bodyState (some n) } t1 ds1 := by
    subst hh1
    exact h2 _ rfl (by show some 0 = some (n - (fed.flatten.length + b.length)); rw [hl, Nat.sub_self]) rfl rfl rfl
  obtain ⟨t2, ds2, h3, h4, h5, h6⟩ := rp_last (by rw [hfl]; exact hd) hsz hw hr1 s1 h1' (win b [] 0) t1.responseProgress
  have e1 : ({ t1 with responseProgress := t1.responseProgress } : Tx) = t1 := rfl
  rw [e1] at h3
  have r1 : responseStep e (responseFed b (rp s h t (r.sofar s.txs.response ds) inp)) = (.ok none,
      rp s1 { h1' with statePrevious := .finalize } t2 (r.sofar s1.txs.response ds2) (win b [] 0)) := by
    rw [hfed]
    have hst1 : h1'.state = .finalize := by rw [← hh1]
    have := rp_round (e := e) (s0 := rp s1 { h with bytesConsumed := 0 } t (r.sofar s1.txs.response ds) (win [] b 0)) s1 h1' t2
      (r.sofar s1.txs.response ds2) (win b [] 0) rfl ?_ (by rw [← hh1]; show h.status ≠ _; rw [hst]; decide) (by rw [hst1]; decide)
    · rw [this, ← hh1]
    · rw [hps (st := .bodyIdentityClKnown) hr.state]
      show responseBodyIdentityClKnown e _ = _
      rw [identityOpen_rp h1 hleft (by dsimp only; rw [hst]; decide) (by omega) hne, if_neg (by omega), rp_setResp_bind]
      rw [show n - fed.flatten.length - b.length = 0 from by omega]
      dsimp only
      rw [hh1]
      exact h3
  have hm : t2.responseMessageLen = (fed.flatten ++ b).length := by
    have := h6.records.messageLength
    rw [hfl] at this
    exact this
  have hel : t2.responseEntityLen = (decodeEnd Ds (fed.flatten ++ b)).length := by
    have := h6.records.bodyLength
    rw [hfl] at this
    exact this
  have h7 := rp_codedEnded hd.callbacks s1 { h1' with statePrevious := .finalize } { t2 with responseProgress := .complete }
    (r.sofar s1.txs.response ds2) (win b [] 0) h6.ended (by
      show t2.responseMessageLen < _
      rw [hm]
      exact hd.length) (by
      show t2.responseEntityLen < _
      rw [hel]
      exact hd.decodedLength)
  have h8 := complete_with hd.callbacks s1 { h1' with statePrevious := .finalize } t2 { t2 with responseProgress := .complete }
    (r.sofar s1.txs.response ds2) (r.sofar s1.txs.response ds2) (win b [] 0) (by rw [← hh1]; exact hr.receiver)
    (by rw [← hh1]; show h.status ≠ _; rw [hst]; decide) (by subst hs1; exact hblk) (by rw [h6.progress]; exact hr1.line.progress)
    (by
      have := h6.records.coding
      show t2.responseTransferCoding ≠ _
      rw [show t2.responseTransferCoding = .identity from this]
      decide) h7 (h6.complete.isComplete h0)
  have r2 := answered_round (e := e) (s0 := rp s1 { h1' with statePrevious := .finalize } t2 (r.sofar s1.txs.response ds2) (win b [] 0))
    s1 { h1' with statePrevious := .finalize, state := .idle } { t2 with responseProgress := .complete } _ _ rfl (by
      rw [hps (st := .finalize) (by rw [rp_resp, ← hh1])]
      show responseFinalize e _ = _
      unfold responseFinalize
      rw [rp_state_bind, rp_input, win_isGap, if_neg (by simp), rp_resp,
        if_neg (by rw [← hh1]; show h.status ≠ _; rw [hst]; decide), win_asSlice]
      exact h8) (by rw [← hh1]; show h.status ≠ _; rw [hst]; decide) (by simp)
  obtain ⟨s', r3, hi, -⟩ := answers_idle (e := e) (s := answered e.cfg.txAutoDestroy s1
      { h1' with statePrevious := .idle, state := .idle } { t2 with responseProgress := .complete }
      (r.sofar s1.txs.response ds2 ++ [.tx .responseComplete s1.txs.response, .tx .transactionComplete s1.txs.response])
      (win b [] 0)) (by
    subst hh1
    exact ⟨rfl, hr.buf, hr.header, hr.receiver, .inr (.inr hst), by subst hs1; exact hblk⟩) rfl
  refine ⟨s', responseLoop_enough ?_ (.next r1 (.next r2 (.zero _))) r3, ?_⟩
  · rw [hfed]
    refine ⟨toPData_wf (.data b), rfl, Nat.zero_le _, fun hx => ?_, ?_⟩
    · rw [rp_resp] at hx
      dsimp only at hx
      rw [hst] at hx
      cases hx
    · show h.buf.length + (h.header.getD []).length ≤ _
      rw [hr.buf, hr.header]
      exact Nat.zero_le _
  · rw [hfl] at h4 h6
    exact finished_download h6.complete h4 h5 hg (hk1.trans hk) (by subst hs1; exact htr) hi

/-! ### The end of the connection -/

/-- What the end of the connection is to the request side, between requests: nothing. -/
theorem requestData_close {e : Env} {s : Conn} (hb : BetweenRequests { s with req := { s.req with status := .data } })
    (hst : s.req.status = .closed) (hp : s.resp.status ≠ .dataOther) (hso : Txs.Sorted s.txs.map) :
    ∃ s', requestData e {} s = (.ok (some .data), s') ∧ s'.resp = s.resp ∧ s'.trace = s.trace ∧
      (∀ j, j ≠ s.txs.request → s'.txs.get j = s.txs.get j) ∧ s'.txs.response = s.txs.response ∧
      s'.responseDataOtherAtTxEnd = s.responseDataOtherAtTxEnd ∧ Txs.Sorted s'.txs.map := by
  rw [requestData_eq, if_neg (by rw [hst]; decide), if_neg (by rw [hst]; decide), if_neg (fun h => h.2 hst),
    if_neg (by rw [hst]; decide), requestProcess_data rfl]
  dsimp only
  rw [if_neg hp]
  have hbuf : s.req.buf = [] := hb.buf
  obtain ⟨s', h1, -, h3, h4, -, h6, h7, h8, -, h10⟩ := step_idle_any (e := e) (m := s.txs.map.length) (s := { s with
    req := { s.req with bytesConsumed := 0 }, input := {}
    requestChunkCount := s.requestChunkCount + 1
    requestDataCounter := wrapAdd s.requestDataCounter (PData.len {}) })
    ⟨hb.state, hb.buf, hb.header, hb.receiver, .inr (.inr (.inl rfl)), hb.next, hb.beyond⟩ rfl rfl (by
      refine ⟨hso, ?_⟩
      rcases h : s.txs.get s.txs.request with _ | t
      · exact .inl ⟨rfl, Nat.le_refl _⟩
      · exact .inr ⟨rfl, Nat.le_succ _⟩)
  refine ⟨s', requestLoop_some (by unfold requestRounds; omega) h1, h7, h3, h4, h6, h8, h10.1⟩

/-- What the end of the connection is to a response whose body lasts until then: its end. -/
theorem responseData_close {C : Codecs} {e : Env} {lzma : Bool} {layers : List Encoding} {Ds : List (Decoder C)} {fed : List Bytes}
    (hd : Decodable e lzma layers Ds fed.flatten)
    (hsz : layers ≠ [] → SizesAllowed e.cfg.compressionOptions Ds fed)
    {t0 : Tx} (h0 : t0.requestProgress = .complete) {r : ResponseHead} (hw : r.WellFormed)
    {h : Half} {t : Tx} {ds : List Bytes}
    (hr : Reads Ds layers t0 r none fed h t ds) (hst : h.status = .closed) (s0 s : Conn) (inp : PData)
    (hg : s0.txs.get s0.txs.response = some t0) (hk : s.txs.response = s0.txs.response) (htr : s.trace = s0.trace)
    (hblk : s.responseDataOtherAtTxEnd = false) :
    ∃ s', responseData e {} (rp s h t (r.sofar s.txs.response ds) inp) = (.ok (some .data), s') ∧
      Downloaded e.cfg.txAutoDestroy s0 s' r none fed.flatten (decodeEnd Ds fed.flatten) := by
  rw [responseData_eq, rp_resp, if_neg (by rw [hst]; decide), if_neg (by rw [hst]; decide), if_neg (fun h => h.2 hst),
    if_neg (by rw [hst]; decide)]
  generalize hs1 : ({ s with responseDataCounter := wrapAdd s.responseDataCounter (PData.len {}) } : Conn) = s1
  have hk1 : s1.txs.response = s.txs.response := by subst hs1; rfl
  have hfed : ({ rp s h t (r.sofar s.txs.response ds) inp with
      resp := { h with bytesConsumed := 0 }, input := {}
      responseDataCounter := wrapAdd s.responseDataCounter (PData.len {}) } : Conn) =
      rp s1 { h with bytesConsumed := 0 } t (r.sofar s1.txs.response ds) {} := by subst hs1; rfl
  generalize hh1 : ({ h with bytesConsumed := 0, state := .finalize, statePrevious := .finalize } : Half) = h1
  have hbuf : h1.buf = [] := by rw [← hh1]; exact hr.buf
  have hst1 : h1.status = .closed := by rw [← hh1]; exact hst
  have r1 : responseStep e (rp s1 { h with bytesConsumed := 0 } t (r.sofar s1.txs.response ds) {}) = (.ok none,
      rp s1 h1 t (r.sofar s1.txs.response ds) {}) := by
    have := rp_round (e := e) (s0 := rp s1 { h with bytesConsumed := 0 } t (r.sofar s1.txs.response ds) {}) s1
      { h with bytesConsumed := 0, state := .finalize } t (r.sofar s1.txs.response ds) {} rfl ?_
      (by show h.status ≠ _; rw [hst]; decide) (by simp)
    · rw [this, ← hh1]
    · rw [hps (st := .bodyIdentityStreamClose) hr.state]
      show responseBodyIdentityStreamClose e _ = _
      unfold responseBodyIdentityStreamClose
      have h4 : responseStreamData e (rp s1 { h with bytesConsumed := 0 } t (r.sofar s1.txs.response ds) {}) =
          (.ok (), rp s1 { h with bytesConsumed := 0 } t (r.sofar s1.txs.response ds) {}) := by
        unfold responseStreamData
        rw [rp_state_bind, rp_input, if_neg (by decide), if_pos (by decide)]
        rfl
      rw [M.bind_ok h4, rp_state_bind, rp_resp, if_pos hst]
      rfl
  have hr1 : Reads Ds layers t0 r none fed { h1 with state := bodyState none } t ds := by
    subst hh1
    exact ⟨rfl, hr.left, hr.buf, hr.header, hr.receiver, hr.line, hr.headers, hr.coding, hr.length, hr.receives, hr.decoded, hr.filled⟩
  obtain ⟨t2, ds2, h3, h4, h5, h6⟩ := rp_last hd hsz hw hr1 s1 { h1 with buf := [] } {} .complete
  have h8 := complete_with hd.callbacks s1 { h1 with buf := [] } t t2
    (r.sofar s1.txs.response ds) (r.sofar s1.txs.response ds2) {} (by rw [← hh1]; exact hr.receiver)
    (by show h1.status ≠ _; rw [hst1]; decide) (by subst hs1; exact hblk) hr.line.progress
    (by rw [hr.coding]; decide) h3 (h6.isComplete h0)
  have r2 := answered_round (e := e) (s0 := rp s1 h1 t (r.sofar s1.txs.response ds) {})
    s1 { h1 with buf := [], state := .idle } t2 _ _ rfl (by
      rw [hps (st := .finalize) (by rw [rp_resp, ← hh1])]
      show responseFinalize e _ = _
      unfold responseFinalize
      rw [rp_state_bind, rp_input, if_neg (by decide), rp_resp, if_pos hst1]
      unfold responseFinalizeLine
      rw [rp_state_bind, rp_resp]
      dsimp only
      rw [hbuf, show decide (([] : Bytes) ≠ []) = false from by simp]
      refine (M.when_false_bind _ _ _).trans ?_
      rw [rp_setResp_bind, show ([] : Bytes) ++ PData.asSlice {} = [] from rfl, if_pos rfl]
      exact h8) (by show h1.status ≠ _; rw [hst1]; decide) (by simp)
  obtain ⟨s', r3, hi, -⟩ := answers_idle_any (e := e) (s := answered e.cfg.txAutoDestroy s1
      { h1 with buf := [], statePrevious := .idle, state := .idle } t2
      (r.sofar s1.txs.response ds2 ++ [.tx .responseComplete s1.txs.response, .tx .transactionComplete s1.txs.response])
      {}) (by
    subst hh1
    exact ⟨rfl, rfl, hr.header, hr.receiver, .inr (.inr rfl), by subst hs1; exact hblk⟩) rfl rfl
  refine ⟨s', ?_, finished_download h6 h4 h5 hg (hk1.trans hk) (by subst hs1; exact htr) hi⟩
  have h9 : responseProcess e (rp s1 { h with bytesConsumed := 0 } t (r.sofar s1.txs.response ds) {}) = (.ok (some .data), s') := by
    unfold responseProcess
    rw [rp_state_bind]
    have : responseEarly e (rp s1 { h with bytesConsumed := 0 } t (r.sofar s1.txs.response ds) {}) =
        (.ok none, rp s1 { h with bytesConsumed := 0 } t (r.sofar s1.txs.response ds) {}) := by
      unfold responseEarly
      rw [rp_state_bind, rp_input, if_neg (by decide)]
      rfl
    rw [M.bind_ok this]
    dsimp only
    have hn : responseRounds (rp s1 { h with bytesConsumed := 0 } t (r.sofar s1.txs.response ds) {}) = 29 + 1 + 1 + 1 := by
      unfold responseRounds
      rw [rp_resp, rp_input]
      dsimp only
      rw [hr.buf]
      rfl
    rw [hn, responseLoop_none r1, responseLoop_none r2]
    exact responseLoop_some (by decide) r3
  rw [← hfed] at h9
  exact h9

/-- The end of the connection. -/
theorem close_download {C : Codecs} {e : Env} (hfl : e.cfg.flushIncomplete = false) {lzma : Bool} {layers : List Encoding}
    {Ds : List (Decoder C)} {fed : List Bytes}
    (hd : Decodable e lzma layers Ds fed.flatten)
    (hsz : layers ≠ [] → SizesAllowed e.cfg.compressionOptions Ds fed)
    {t0 : Tx} (h0 : t0.requestProgress = .complete) {r : ResponseHead} (hw : r.WellFormed)
    {h : Half} {t : Tx} {ds : List Bytes}
    (hr : Reads Ds layers t0 r none fed h t ds) (hst : h.status = .data) (s0 s : Conn) (inp : PData)
    (hg : s0.txs.get s0.txs.response = some t0) (hk : s.txs.response = s0.txs.response) (htr : s.trace = s0.trace)
    (hblk : s.responseDataOtherAtTxEnd = false) (hb : BetweenRequests s) (hne : s.txs.response < s.txs.request)
    (hso : Txs.Sorted s.txs.map) :
    ∃ s', closeConn e (rp s h t (r.sofar s.txs.response ds) inp) = (.ok (some .data, some .data), s') ∧
      Downloaded e.cfg.txAutoDestroy s0 s' r none fed.flatten (decodeEnd Ds fed.flatten) := by
  unfold closeConn
  rw [M.bind_modify]
  have hq : s.req.markClosed.status = .closed := by
    unfold Half.markClosed
    rcases hb.status with h | h | h | h <;> rw [h] <;> rfl
  have hhc : h.markClosed.status = .closed := by
    unfold Half.markClosed
    rw [hst]
    rfl
  generalize hs1 : ({ rp s h t (r.sofar s.txs.response ds) inp with
    req := (rp s h t (r.sofar s.txs.response ds) inp).req.markClosed
    resp := (rp s h t (r.sofar s.txs.response ds) inp).resp.markClosed } : Conn) = s1
  have hget1 : ∀ j, s1.txs.get j = if j = s.txs.response then some t else s.txs.get j := by
    subst hs1
    exact fun j => Txs.get_set _ _ _ _
  have hreq1 : s1.txs.request = s.txs.request := by subst hs1; rfl
  have hrsp1 : s1.txs.response = s.txs.response := by subst hs1; rfl
  obtain ⟨s2, h1, h2, h3, h4, h5, h6, h7⟩ := requestData_close (e := e) (s := s1)
    ⟨by subst hs1; exact hb.state, by subst hs1; exact hb.buf, by subst hs1; exact hb.header, by subst hs1; exact hb.receiver,
      .inr (.inr (.inl rfl)), by
      show s1.txs.get s1.txs.request = none ∨ s1.txs.get s1.txs.request = some { index := s1.txs.request }
      rw [hget1, hreq1, if_neg (by omega)]
      exact hb.next, by
      intro j hj
      show s1.txs.get j = none
      have hj : s1.txs.request < j := hj
      rw [hget1, if_neg (by omega)]
      exact hb.beyond j (by omega)⟩ (by subst hs1; exact hq) (by subst hs1; show h.markClosed.status ≠ _; rw [hhc]; decide)
    (by subst hs1; exact Txs.sorted_put _ _ _ hso)
  rw [M.bind_ok h1]
  have hget : s2.txs.get s2.txs.response = some t := by
    rw [h5, h4 _ (by omega), hget1, hrsp1, if_pos rfl]
  have e2 : s2 = rp { s2 with trace := s0.trace } h.markClosed t (r.sofar s2.txs.response ds) s2.input := by
    have e3 : s2.txs.set s2.txs.response t = s2.txs := by
      have := Txs.put_self s2.txs.response t s2.txs.map h7 hget
      unfold Txs.set
      rw [this]
    have e4 : s2.trace = s0.trace ++ r.sofar s2.txs.response ds := by
      rw [h3, h5, hrsp1]
      subst hs1
      show s.trace ++ _ = _
      rw [htr]
    have e5 : s2.resp = h.markClosed := by rw [h2]; subst hs1; rfl
    unfold rp
    dsimp only
    rw [e3, ← e4, ← e5]
  obtain ⟨s', h8, h9⟩ := responseData_close hd hsz h0 hw (h := h.markClosed)
    ⟨hr.state, hr.left, hr.buf, hr.header, hr.receiver, hr.line, hr.headers, hr.coding, hr.length, hr.receives, hr.decoded, hr.filled⟩
    hhc s0 { s2 with trace := s0.trace } s2.input hg ((h5.trans hrsp1).trans hk) rfl (h6.trans (by subst hs1; exact hblk))
  have h8' : responseData e {} s2 = (.ok (some .data), s') := by
    rw [e2]
    exact h8
  rw [M.bind_ok h8']
  refine ⟨s', ?_, h9⟩
  rw [M.bind_state, hfl]
  rfl

end Model

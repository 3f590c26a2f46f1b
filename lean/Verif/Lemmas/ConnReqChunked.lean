/-
Chunked request bodies, one round and one call.
-/
import Verif.Lemmas.ChunkedTokens

namespace Model

open M Spec

/-- The parser is inside a chunked request body. -/
structure ReqChunk (e : Env) (m : Nat) (w : Want) (s : Conn) : Prop where
  fits : w.Fits s.req
  buf : ∀ c ∈ s.req.buf, c ∈ [(0x0d : UInt8), 0x0a, 0x20, 0x09, 0x0b, 0x0c]
  room : s.req.buffered + w.pairs + m ≤ e.cfg.fieldLimit
  valid : ∀ c ∈ w.chunks, c.Valid ∧ c.line.length ≤ m
  status : s.req.status = .open ∨ s.req.status = .data
  receiver : s.req.receiver = none
  tx : ∃ t, s.txs.get s.txs.request = some t ∧ t.requestProgress = .body ∧
    t.requestContentEncodingProcessing = .none ∧ t.requestEntityLen + w.body.length < 2 ^ 64

/-- From `s` to `s'`, the callbacks got `x`, the first part of the remaining body. -/
structure ReqMoved (w : Want) (s : Conn) (w' : Want) (s' : Conn) : Prop where
  body : ∃ x, w.body = x ++ w'.body ∧ delivered .requestBodyData s.txs.request s'.trace =
    delivered .requestBodyData s.txs.request s.trace ++ x.map some
  request : s'.txs.request = s.txs.request
  buffered : s'.req.buffered + w'.pairs ≤ s.req.buffered + w.pairs

theorem ReqMoved.trans {w w' w'' : Want} {s s' s'' : Conn} (h : ReqMoved w s w' s') (h' : ReqMoved w' s' w'' s'') :
    ReqMoved w s w'' s'' := by
  obtain ⟨x, hx, hd⟩ := h.body
  obtain ⟨x', hx', hd'⟩ := h'.body
  refine ⟨⟨x ++ x', by rw [hx, hx', List.append_assoc], ?_⟩, h'.request.trans h.request,
    Nat.le_trans h'.buffered h.buffered⟩
  rw [h.request] at hd'
  rw [hd', hd, List.map_append, List.append_assoc]

theorem requestStep_next {e : Env} {s s1 : Conn} (hg : s.input.gapLen = none)
    (h : handleRequestState e s = (.ok (), s1)) (hst : s1.req.status = .open ∨ s1.req.status = .data)
    (hh : s1.req.state ≠ .headers) :
    requestStep e s = (.ok none, { s1 with req := { s1.req with statePrevious := s1.req.state } }) :=
  requestStep_ok (by simp [PData.isGap, hg]) h (by rcases hst with h | h <;> rw [h] <;> decide)
    (requestHandleStateChange_ok hh)

/-- The line is not complete. -/
theorem handleRequestAbsentLf_ok {e : Env} {s : Conn}
    (hr : s.input.len = 0 ∨ s.req.buffered + s.input.len ≤ e.cfg.fieldLimit) :
    handleRequestAbsentLf e s = (.error (.status .dataBuffer), { s with
      req := { s.req with
        buf := s.req.buf ++ s.input.asSlice
        bytesConsumed := (s.input.consume s.input.len).position }
      input := s.input.consume s.input.len }) := by
  unfold handleRequestAbsentLf
  rw [M.bind_state]
  have : checkRequestBufferLimit e s.input.len s = (.ok (), s) := by
    unfold checkRequestBufferLimit
    rw [M.bind_state, if_neg (by omega)]
    rfl
  rw [M.bind_ok this]
  rfl

theorem len_asSlice {d : PData} (h : d.gapLen = none) : d.len = d.asSlice.length := by
  unfold PData.len; rw [h]

/-- The input ends while a chunk-size line is awaited. -/
theorem reqChunk_size_none {e : Env} {m : Nat} {cs : List BodyChunk} {s : Conn}
    (h : ReqChunk e m (.size cs) s) (hg : s.input.gapLen = none) (hin : s.input.asSlice = []) :
    ∃ s', requestStep e s = (.ok (some .data), s') ∧ ReqChunk e m (.size cs) s' ∧
      ReqMoved (.size cs) s (.size cs) s' := by
  obtain ⟨t, ht, hp, henc, hlen⟩ := h.tx
  have hl : s.input.len = 0 := by rw [len_asSlice hg, hin]; rfl
  have hstate := handleRequestState_bodyChunkedLength (e := e) h.fits
  have hab := handleRequestAbsentLf_ok (e := e) (s := s) (.inl hl)
  have hloop : requestBodyChunkedLength e s = handleRequestAbsentLf e s := by
    unfold requestBodyChunkedLength
    rw [M.bind_state, hin]
    unfold requestChunkedLengthLoop
    rfl
  refine ⟨_, requestStep_data (t := t) (by simp [PData.isGap, hg]) (.inr (hstate.trans (hloop.trans hab)))
    h.receiver ht, ⟨h.fits, ?_, ?_, h.valid, .inr rfl, h.receiver, t, ht, hp, henc, hlen⟩,
    ⟨⟨[], rfl, by simp⟩, rfl, ?_⟩⟩
  · show ∀ c ∈ s.req.buf ++ s.input.asSlice, _
    rw [hin, List.append_nil]
    exact h.buf
  · have := h.room
    simp only [Half.buffered, hin, List.append_nil] at this ⊢
    exact this
  · simp only [Half.buffered, hin, List.append_nil]
    exact Nat.le_refl _

theorem requestChunkLine_some {e : Env} {s : Conn} {t : Tx} {line : Bytes} {n : Nat} {ext : Bool}
    (ht : s.txs.get s.txs.request = some t)
    (hparse : parseChunkedLength (s.req.buf ++ line) = .ok (some n) ext) (hn : n ≠ 0) :
    ∃ s1, requestChunkLine e line s =
        (.ok (), { s1 with req := { s1.req with chunkedLength := some n, state := .bodyChunkedData } }) ∧
      TxStep s.txs.request { t with requestMessageLen := wrapAdd t.requestMessageLen (s.req.buf ++ line).length }
        [] s s1 := by
  obtain ⟨s1, h1, k1⟩ := putRequest_step
    { t with requestMessageLen := wrapAdd t.requestMessageLen (s.req.buf ++ line).length } s
  refine ⟨s1, ?_, k1⟩
  unfold requestChunkLine
  rw [M.bind_state]
  have hm : modifyRequest e (fun t => { t with
      requestMessageLen := wrapAdd t.requestMessageLen (s.req.buf ++ line).length }) s = (.ok (), s1) := by
    unfold modifyRequest
    rw [M.bind_ok (requestTx_some ht)]
    exact h1
  rw [M.bind_ok hm, hparse]
  dsimp only
  unfold setReq
  rw [M.bind_modify]
  obtain ⟨n, rfl⟩ := Nat.exists_eq_succ_of_ne_zero hn
  rfl

theorem requestChunkLine_zero {e : Env} {s : Conn} {t : Tx} {line : Bytes} {ext : Bool}
    (ht : s.txs.get s.txs.request = some t)
    (hparse : parseChunkedLength (s.req.buf ++ line) = .ok (some 0) ext) :
    ∃ s1 s2, requestChunkLine e line s = (.ok (), s2) ∧
      TxStep s.txs.request { t with requestMessageLen := wrapAdd t.requestMessageLen (s.req.buf ++ line).length }
        [] s s1 ∧
      TxStep s.txs.request
        { t with
          requestMessageLen := wrapAdd t.requestMessageLen (s.req.buf ++ line).length, requestProgress := .trailer }
        [] { s1 with req := { s1.req with chunkedLength := some 0, state := .headers } } s2 := by
  obtain ⟨s1, h1, k1⟩ := putRequest_step
    { t with requestMessageLen := wrapAdd t.requestMessageLen (s.req.buf ++ line).length } s
  generalize hs2 : ({ s1 with req := { s1.req with chunkedLength := some 0, state := .headers } } : Conn) = s2
  have hx : s2.txs = s1.txs := by subst hs2; rfl
  obtain ⟨s3, h3, k3⟩ := putRequest_step
    { t with
      requestMessageLen := wrapAdd t.requestMessageLen (s.req.buf ++ line).length, requestProgress := .trailer } s2
  rw [hx, k1.request] at k3
  refine ⟨s1, s3, ?_, k1, by rw [hs2]; exact k3⟩
  unfold requestChunkLine
  rw [M.bind_state]
  have hm : modifyRequest e (fun t => { t with
      requestMessageLen := wrapAdd t.requestMessageLen (s.req.buf ++ line).length }) s = (.ok (), s1) := by
    unfold modifyRequest
    rw [M.bind_ok (requestTx_some ht)]
    exact h1
  rw [M.bind_ok hm, hparse]
  dsimp only
  unfold setReq
  rw [M.bind_modify]
  show modifyRequest e (fun t => { t with requestProgress := .trailer })
    ({ s1 with req := { s1.req with chunkedLength := some 0, state := .headers } } : Conn) = _
  rw [hs2]
  unfold modifyRequest
  rw [M.bind_ok (requestTx_some (t := { t with
    requestMessageLen := wrapAdd t.requestMessageLen (s.req.buf ++ line).length })
    (by rw [hx, k1.request]; exact k1.here))]
  exact h3

theorem requestChunkedLengthLoop_line {e : Env} {data rest line : Bytes} (h : takeTillLf data = .ok rest line) :
    requestChunkedLengthLoop e data = (do
      requestConsume line.length
      let s ← state
      when (s.req.buf ≠ []) (checkRequestBufferLimit e line.length)
      let t ← requestTx e
      if line = [10] then do
        putRequest { t with requestMessageLen := wrapAdd t.requestMessageLen line.length }
        requestChunkedLengthLoop e rest
      else requestChunkLine e line) := by
  rw [requestChunkedLengthLoop]
  split
  next rest' line' hl =>
    rw [h] at hl
    obtain ⟨rfl, rfl⟩ := IRes.ok.inj hl
    rfl
  next hl => exact absurd h (hl _ _)

/-- A whole line is there. -/
theorem requestBodyChunkedLength_line {e : Env} {s : Conn} {t : Tx} {line rest : Bytes} {n : Nat}
    (ht : s.txs.get s.txs.request = some t) (hline : SizeLine line n)
    (hroom : s.req.buffered + line.length ≤ e.cfg.fieldLimit) (hin : s.input.asSlice = line ++ rest) :
    requestBodyChunkedLength e s = requestChunkLine e line { s with
      req := { s.req with bytesConsumed := (s.input.consume line.length).position }
      input := s.input.consume line.length } := by
  unfold requestBodyChunkedLength
  rw [M.bind_state, hin]
  rw [requestChunkedLengthLoop_line (sizeLine_line hline rest)]
  · unfold requestConsume
    rw [M.bind_modify, M.bind_state]
    generalize hs1 : ({ s with
      req := { s.req with bytesConsumed := (s.input.consume line.length).position }
      input := s.input.consume line.length } : Conn) = s1
    have hb : s1.req.buffered = s.req.buffered := by subst hs1; rfl
    have htx : s1.txs = s.txs := by subst hs1; rfl
    have hw : M.when (s1.req.buf ≠ []) (checkRequestBufferLimit e line.length) s1 = (.ok (), s1) := by
      unfold M.when
      split
      · unfold checkRequestBufferLimit
        rw [M.bind_state, if_neg (by rw [hb]; omega)]
        rfl
      · rfl
    rw [M.bind_ok hw, M.bind_ok (requestTx_some (t := t) (by rw [htx]; exact ht)), if_neg (sizeLine_ne hline)]
theorem consume_gapLen (d : PData) (n : Nat) : (d.consume n).gapLen = d.gapLen := rfl

/-- A chunk-size line. -/
theorem reqChunk_size {e : Env} {m : Nat} {c : BodyChunk} {cs : List BodyChunk} {s : Conn} {rest : Bytes}
    (h : ReqChunk e m (.size (c :: cs)) s) (hg : s.input.gapLen = none) (hin : s.input.asSlice = c.line ++ rest) :
    ∃ s', requestStep e s = (.ok none, s') ∧ ReqChunk e m (.data c.data cs) s' ∧
      ReqMoved (.size (c :: cs)) s (.data c.data cs) s' ∧ s'.input = s.input.consume c.line.length := by
  obtain ⟨t, ht, hp, henc, hlen⟩ := h.tx
  obtain ⟨⟨hline, hne, hmax⟩, hm⟩ := h.valid c (by simp [Want.chunks])
  have hroom := h.room
  have hstate := (handleRequestState_bodyChunkedLength (e := e) h.fits).trans
    (requestBodyChunkedLength_line ht hline (by omega) hin)
  generalize hs1 : ({ s with
      req := { s.req with bytesConsumed := (s.input.consume c.line.length).position }
      input := s.input.consume c.line.length } : Conn) = s1 at hstate
  have hreq : s1.req = { s.req with bytesConsumed := (s.input.consume c.line.length).position } := by
    subst hs1; rfl
  have htx : s1.txs = s.txs := by subst hs1; rfl
  have htr : s1.trace = s.trace := by subst hs1; rfl
  have hin1 : s1.input = s.input.consume c.line.length := by subst hs1; rfl
  obtain ⟨ext, hparse⟩ := sizeLine_parse (buf := s1.req.buf) hline hmax (by rw [hreq]; exact h.buf)
  obtain ⟨s2, hcl, k⟩ := requestChunkLine_some (e := e) (s := s1) (t := t) (by rw [htx]; exact ht) hparse
    (by rw [ne_eq, List.length_eq_zero_iff]; exact hne)
  rw [hcl] at hstate
  rw [htx] at k
  have hrq := k.request
  rw [htx] at hrq
  have hst := requestStep_next hg hstate (by show s2.req.status = _ ∨ s2.req.status = _; rw [k.req, hreq]; exact h.status)
    (by show State.bodyChunkedData ≠ _; decide)
  have hb : s2.req.buffered = s.req.buffered := by rw [k.req, hreq]; rfl
  refine ⟨_, hst, ⟨⟨rfl, rfl, hne⟩, ?_, ?_, ?_, ?_, ?_, ?_⟩, ⟨⟨[], rfl, ?_⟩, hrq, ?_⟩, ?_⟩
  · show ∀ c ∈ s2.req.buf, _
    rw [k.req, hreq]; exact h.buf
  · show s2.req.buffered + _ + _ ≤ _
    rw [hb]; exact hroom
  · intro c hc; exact h.valid c (List.mem_cons_of_mem _ hc)
  · show s2.req.status = _ ∨ s2.req.status = _
    rw [k.req, hreq]; exact h.status
  · show s2.req.receiver = none
    rw [k.req, hreq]; exact h.receiver
  · refine ⟨{ t with requestMessageLen := wrapAdd t.requestMessageLen (s1.req.buf ++ c.line).length }, ?_, hp,
      henc, hlen⟩
    show s2.txs.get s2.txs.request = _
    rw [hrq]; exact k.here
  · show delivered _ _ s2.trace = _
    rw [k.trace, htr]; simp
  · show s2.req.buffered + _ ≤ _
    rw [hb]; exact Nat.le_refl _
  · show s2.input = _
    rw [k.input, hin1]

/-- The last chunk's size line: the trailer follows. -/
theorem reqChunk_last {e : Env} {m : Nat} {line : Bytes} {s : Conn} {rest : Bytes}
    (h : ReqChunk e m (.size []) s) (hg : s.input.gapLen = none) (hline : SizeLine line 0) (hm : line.length ≤ m)
    (hin : s.input.asSlice = line ++ rest) :
    ∃ s', requestStep e s = (.ok none, s') ∧ s'.req.state = .headers ∧ s'.txs.request = s.txs.request ∧
      delivered .requestBodyData s.txs.request s'.trace = delivered .requestBodyData s.txs.request s.trace ∧
      s'.input.asSlice = rest := by
  obtain ⟨t, ht, hp, henc, hlen⟩ := h.tx
  have hroom := h.room
  have hstate := (handleRequestState_bodyChunkedLength (e := e) h.fits).trans
    (requestBodyChunkedLength_line ht hline (by omega) hin)
  generalize hs1 : ({ s with
      req := { s.req with bytesConsumed := (s.input.consume line.length).position }
      input := s.input.consume line.length } : Conn) = s1 at hstate
  have hreq : s1.req = { s.req with bytesConsumed := (s.input.consume line.length).position } := by
    subst hs1; rfl
  have htx : s1.txs = s.txs := by subst hs1; rfl
  have htr : s1.trace = s.trace := by subst hs1; rfl
  have hin1 : s1.input = s.input.consume line.length := by subst hs1; rfl
  obtain ⟨ext, hparse⟩ := sizeLine_parse (buf := s1.req.buf) hline (by decide) (by rw [hreq]; exact h.buf)
  obtain ⟨s2, s3, hcl, k2, k3⟩ := requestChunkLine_zero (e := e) (s := s1) (t := t) (by rw [htx]; exact ht) hparse
  rw [hcl] at hstate
  rw [htx] at k2 k3
  have hrq2 := k2.request
  rw [htx] at hrq2
  have hrq3 : s3.txs.request = s.txs.request := k3.request.trans hrq2
  obtain ⟨s4, hsc, hst4, htxs4, htr4, hin4⟩ : ∃ s4, requestHandleStateChange e s3 = (.ok (), s4) ∧
      s4.req.state = .headers ∧ s4.txs.request = s3.txs.request ∧
      delivered .requestBodyData s.txs.request s4.trace = delivered .requestBodyData s.txs.request s3.trace ∧
      s4.input.asSlice = s3.input.asSlice := by
    have hst3 : s3.req.state = .headers := by rw [k3.req]
    unfold requestHandleStateChange
    rw [M.bind_state]
    split
    next => exact ⟨s3, rfl, hst3, rfl, rfl, rfl⟩
    next =>
      have hx : (s3.req.state == State.headers) = true := by rw [hst3]; decide
      rw [hx]
      have hx : M.when true (requestSetReceiver e) s3 = (.ok (), { s3 with
          input := s3.input.resetCallbackStart, req := { s3.req with receiver := some .requestTrailerData } }) := by
        show requestSetReceiver e s3 = _
        unfold requestSetReceiver
        rw [M.bind_ok (requestTx_some (by rw [hrq3]; exact k3.here)), M.bind_modify]
        rfl
      rw [M.bind_ok hx]
      exact ⟨_, rfl, hst3, rfl, rfl, rfl⟩
  refine ⟨s4, requestStep_ok (by simp [PData.isGap, hg]) hstate ?_ hsc, hst4, htxs4.trans hrq3, ?_, ?_⟩
  · rw [k3.req]
    show s2.req.status ≠ _
    rw [k2.req, hreq]
    show s.req.status ≠ _
    rcases h.status with h | h <;> rw [h] <;> decide
  · rw [htr4, k3.trace]
    show delivered _ _ (s2.trace ++ []) = _
    rw [k2.trace, htr]
    simp
  · rw [hin4, k3.input]
    show s2.input.asSlice = _
    rw [k2.input, hin1, PData.consume_asSlice (by rw [hin]; simp), hin]
    simp

/-- Chunk data. -/
theorem requestBodyChunkedData_step {e : Env} (hcb : CallbacksOK e) {m : Nat} {d : Bytes} {cs : List BodyChunk}
    {s : Conn} (h : ReqChunk e m (.data d cs) s) (hg : s.input.gapLen = none) {n : Nat}
    (hn : n = min s.input.asSlice.length d.length) (h0 : n ≠ 0) :
    ∃ s1, handleRequestState e s =
        (if n = d.length then .ok () else .error (.status .data), { s1 with
          input := s1.input.consume n
          req := { s1.req with
            bytesConsumed := (s1.input.consume n).position
            chunkedLength := some (d.length - n)
            state := if n = d.length then .bodyChunkedDataEnd else s1.req.state } }) ∧
      ∃ t evs, TxStep s.txs.request t evs s s1 ∧ t.requestProgress = .body ∧
        t.requestContentEncodingProcessing = .none ∧ t.requestEntityLen + (d.drop n ++ carried cs).length < 2 ^ 64 ∧
        delivered .requestBodyData s.txs.request evs = (s.input.asSlice.take n).map some := by
  obtain ⟨t, ht, hp, henc, hlen⟩ := h.tx
  obtain ⟨hf, hcl, hne⟩ := h.fits
  have hlm : (s.input.asSlice.take n).length = n := by rw [List.length_take]; omega
  have hsum : n + (d.drop n ++ carried cs).length = (d ++ carried cs).length := by simp; omega
  obtain ⟨s1, h1, k1⟩ := requestBodyData_step hcb (some (s.input.asSlice.take n)) ht henc
    (by
      simp only [Option.getD_some, hlm]
      have : (Want.data d cs).body.length = (d ++ carried cs).length := rfl
      omega)
  refine ⟨s1, ?_, _, _, k1, hp, henc, ?_, ?_⟩
  · rw [handleRequestState_bodyChunkedData hf]
    unfold requestBodyChunkedData
    rw [M.bind_state]
    have hq : min s.input.len (s.req.chunkedLength.getD 0) = n := by rw [hcl, len_asSlice hg, hn]; rfl
    generalize min s.input.len (s.req.chunkedLength.getD 0) = q at hq
    rw [hq]
    dsimp only
    rw [if_neg h0]
    have hpre : inputPrefix n s = (.ok (s.input.asSlice.take n), s) := by
      unfold inputPrefix
      rw [if_pos (by omega)]
    rw [M.bind_ok hpre, M.bind_ok h1]
    unfold requestConsume
    rw [M.bind_modify]
    unfold setReq
    rw [M.bind_modify, M.bind_state]
    have hcl1 : s1.req.chunkedLength = some d.length := by rw [k1.req]; exact hcl
    have hcl2 : s1.req.chunkedLength.map (· - n) = some (d.length - n) := by rw [hcl1]; rfl
    by_cases hend : n = d.length
    · rw [if_pos (by show Option.map _ s1.req.chunkedLength = _; rw [hcl1]; simp [hend]), if_pos hend, if_pos hend]
      show (Except.ok (), ({ s1 with
          input := s1.input.consume n
          req := { s1.req with
            bytesConsumed := (s1.input.consume n).position
            chunkedLength := s1.req.chunkedLength.map (· - n)
            state := .bodyChunkedDataEnd } } : Conn)) = _
      rw [hcl2]
    · rw [if_neg (by show ¬ Option.map _ s1.req.chunkedLength = _; rw [hcl1]; simp; omega), if_neg hend, if_neg hend]
      show (Except.error (Err.status .data), ({ s1 with
          input := s1.input.consume n
          req := { s1.req with
            bytesConsumed := (s1.input.consume n).position
            chunkedLength := s1.req.chunkedLength.map (· - n) } } : Conn)) = _
      rw [hcl2]
  · simp only [Option.getD_some, hlm]
    have : (Want.data d cs).body.length = (d ++ carried cs).length := rfl
    omega
  · rw [delivered_requestBodyEvents]
    simp [handedOut, PData.asSlice]

/-- Chunk data up to the end of the input. -/
theorem reqChunk_data_some {e : Env} (hcb : CallbacksOK e) {m : Nat} {d d' : Bytes} {cs : List BodyChunk} {s : Conn}
    (h : ReqChunk e m (.data (d ++ d') cs) s) (hg : s.input.gapLen = none) (hd' : d' ≠ [])
    (hin : s.input.asSlice = d) :
    ∃ s', requestStep e s = (.ok (some .data), s') ∧ ReqChunk e m (.data d' cs) s' ∧
      ReqMoved (.data (d ++ d') cs) s (.data d' cs) s' := by
  obtain ⟨hf, hcl, hne⟩ := h.fits
  by_cases h0 : d = []
  · subst h0
    obtain ⟨t, ht, hp, henc, hlen⟩ := h.tx
    have hstate : handleRequestState e s = (.error (.status .data), s) := by
      rw [handleRequestState_bodyChunkedData hf]
      unfold requestBodyChunkedData
      rw [M.bind_state]
      have hq : min s.input.len (s.req.chunkedLength.getD 0) = 0 := by
        rw [len_asSlice hg, hin]; simp
      rw [hq]
      rfl
    refine ⟨_, requestStep_data (t := t) (by simp [PData.isGap, hg]) (.inl hstate) h.receiver ht,
      ⟨h.fits, h.buf, h.room, h.valid, .inr rfl, h.receiver, t, ht, hp, henc, hlen⟩,
      ⟨⟨[], rfl, by simp⟩, rfl, Nat.le_refl _⟩⟩
  · have hl : d'.length ≠ 0 := by rw [ne_eq, List.length_eq_zero_iff]; exact hd'
    have hl0 : d.length ≠ 0 := by rw [ne_eq, List.length_eq_zero_iff]; exact h0
    obtain ⟨s1, hstate, t, evs, k, hp, henc, hlen, hev⟩ := requestBodyChunkedData_step hcb h hg (n := d.length)
      (by rw [hin]; simp) hl0
    rw [if_neg (by simp; exact hd'), if_neg (by simp; exact hd')] at hstate
    have hx : (d ++ d').length - d.length = d'.length := by simp
    rw [hx] at hstate
    have hb : s1.req.buffered = s.req.buffered := by rw [k.req]
    refine ⟨_, requestStep_data (t := t) (by simp [PData.isGap, hg]) (.inl hstate) ?_ ?_,
      ⟨⟨?_, rfl, hd'⟩, ?_, ?_, h.valid, .inr rfl, ?_, t, ?_, hp, henc, ?_⟩, ⟨⟨d, ?_, ?_⟩, k.request, ?_⟩⟩
    · show s1.req.receiver = none
      rw [k.req]; exact h.receiver
    · show s1.txs.get s1.txs.request = _
      rw [k.request]; exact k.here
    · show s1.req.state = _
      rw [k.req]; exact hf
    · show ∀ c ∈ s1.req.buf, _
      rw [k.req]; exact h.buf
    · show s1.req.buffered + _ + _ ≤ _
      rw [hb]; exact h.room
    · show s1.req.receiver = none
      rw [k.req]; exact h.receiver
    · show s1.txs.get s1.txs.request = _
      rw [k.request]; exact k.here
    · rw [List.drop_left] at hlen
      exact hlen
    · exact List.append_assoc _ _ _
    · show delivered _ _ s1.trace = _
      rw [k.trace, delivered_append, hev, hin, List.take_length]
    · show s1.req.buffered + _ ≤ _
      rw [hb]; exact Nat.le_refl _

/-- The end of the chunk data. -/
theorem reqChunk_data {e : Env} (hcb : CallbacksOK e) {m : Nat} {d : Bytes} {cs : List BodyChunk} {s : Conn}
    {rest : Bytes} (h : ReqChunk e m (.data d cs) s) (hg : s.input.gapLen = none) (hin : s.input.asSlice = d ++ rest) :
    ∃ s', requestStep e s = (.ok none, s') ∧ ReqChunk e m (.crlf cs) s' ∧
      ReqMoved (.data d cs) s (.crlf cs) s' ∧ s'.input = s.input.consume d.length := by
  obtain ⟨hf, hcl, hne⟩ := h.fits
  have hl0 : d.length ≠ 0 := by rw [ne_eq, List.length_eq_zero_iff]; exact hne
  obtain ⟨s1, hstate, t, evs, k, hp, henc, hlen, hev⟩ := requestBodyChunkedData_step hcb h hg (n := d.length)
    (by rw [hin]; simp) hl0
  rw [if_pos rfl, if_pos rfl] at hstate
  have hb : s1.req.buffered = s.req.buffered := by rw [k.req]
  have hst := requestStep_next hg hstate
    (by show s1.req.status = _ ∨ s1.req.status = _; rw [k.req]; exact h.status)
    (by show State.bodyChunkedDataEnd ≠ _; decide)
  refine ⟨_, hst, ⟨rfl, ?_, ?_, h.valid, ?_, ?_, t, ?_, hp, henc, ?_⟩, ⟨⟨d, rfl, ?_⟩, k.request, ?_⟩, ?_⟩
  · show ∀ c ∈ s1.req.buf, _
    rw [k.req]; exact h.buf
  · show s1.req.buffered + _ + _ ≤ _
    rw [hb]; exact h.room
  · show s1.req.status = _ ∨ s1.req.status = _
    rw [k.req]; exact h.status
  · show s1.req.receiver = none
    rw [k.req]; exact h.receiver
  · show s1.txs.get s1.txs.request = _
    rw [k.request]; exact k.here
  · rw [List.drop_length] at hlen
    exact hlen
  · show delivered _ _ s1.trace = _
    rw [k.trace, delivered_append, hev, hin, List.take_left]
  · show s1.req.buffered + _ ≤ _
    rw [hb]; exact Nat.le_refl _
  · show s1.input.consume _ = _
    rw [k.input]

/-- The line break after the data, not complete. -/
theorem reqChunk_break_none {e : Env} {m : Nat} {w w' : Want} {s : Conn} (h : ReqChunk e m w s)
    (hw : w.Fits s.req → s.req.state = .bodyChunkedDataEnd) (hw' : ∀ h : Half, w.Fits h → w'.Fits h)
    (hsize : ∀ h h' : Half, h.state = h'.state → h.chunkedLength = h'.chunkedLength → w.Fits h → w.Fits h')
    (hch : w'.chunks = w.chunks) (hbody : w'.body = w.body) (hg : s.input.gapLen = none)
    (hpairs : w'.pairs + s.input.asSlice.length = w.pairs)
    (hin : ∀ c ∈ s.input.asSlice, c = 13) :
    ∃ s', requestStep e s = (.ok (some .data), s') ∧ ReqChunk e m w' s' ∧ ReqMoved w s w' s' := by
  obtain ⟨t, ht, hp, henc, hlen⟩ := h.tx
  have hroom := h.room
  obtain ⟨s1, h1, k1⟩ := putRequest_step
    { t with requestMessageLen := wrapAdd t.requestMessageLen s.input.len } s
  have hab := handleRequestAbsentLf_ok (e := e) (s := s1) (.inr (by
    rw [k1.req, k1.input, len_asSlice hg]; omega))
  have hstate : handleRequestState e s = handleRequestAbsentLf e s1 := by
    rw [handleRequestState_bodyChunkedDataEnd (hw h.fits)]
    unfold requestBodyChunkedDataEnd
    rw [M.bind_ok (requestTx_some ht), M.bind_state, takeTillLf_none (by
      intro h; exact absurd (hin _ h) (by decide))]
    dsimp only
    rw [M.bind_ok h1]
  have hall := hstate.trans hab
  refine ⟨_, requestStep_data (t := { t with
    requestMessageLen := wrapAdd t.requestMessageLen s.input.len }) (by simp [PData.isGap, hg]) (.inr hall) ?_ ?_,
    ⟨?_, ?_, ?_, ?_, .inr rfl, ?_, { t with
    requestMessageLen := wrapAdd t.requestMessageLen s.input.len }, ?_, hp, henc, ?_⟩, ⟨⟨[], ?_, ?_⟩, k1.request, ?_⟩⟩
  · show s1.req.receiver = none
    rw [k1.req]; exact h.receiver
  · show s1.txs.get s1.txs.request = _
    rw [k1.request]; exact k1.here
  · refine hw' _ (hsize s.req _ ?_ ?_ h.fits)
    · show _ = s1.req.state
      rw [k1.req]
    · show _ = s1.req.chunkedLength
      rw [k1.req]
  · show ∀ c ∈ s1.req.buf ++ s1.input.asSlice, _
    rw [k1.req, k1.input]
    intro c hc
    rcases List.mem_append.1 hc with hc | hc
    · exact h.buf c hc
    · rw [hin c hc]; decide
  · show (s1.req.buf ++ s1.input.asSlice).length + (s1.req.header.getD []).length + _ + _ ≤ _
    rw [k1.req, k1.input, List.length_append]
    unfold Half.buffered at hroom
    omega
  · rw [hch]; exact h.valid
  · show s1.req.receiver = none
    rw [k1.req]; exact h.receiver
  · show s1.txs.get s1.txs.request = _
    rw [k1.request]; exact k1.here
  · rw [hbody]; exact hlen
  · rw [hbody]; rfl
  · show delivered _ _ s1.trace = _
    rw [k1.trace]; simp
  · show (s1.req.buf ++ s1.input.asSlice).length + (s1.req.header.getD []).length + _ ≤ _
    rw [k1.req, k1.input, List.length_append]
    unfold Half.buffered
    omega

/-- The line break after the data, up to its end. -/
theorem reqChunk_break {e : Env} {m : Nat} {w : Want} {s : Conn} {cs : List BodyChunk} {x rest : Bytes}
    (h : ReqChunk e m w s) (hw : s.req.state = .bodyChunkedDataEnd)
    (hch : w.chunks = cs) (hbody : w.body = carried cs) (hg : s.input.gapLen = none)
    (hpairs : cs.length ≤ w.pairs) (hx : (10 : UInt8) ∉ x) (hin : s.input.asSlice = x ++ 10 :: rest) :
    ∃ s', requestStep e s = (.ok none, s') ∧ ReqChunk e m (.size cs) s' ∧ ReqMoved w s (.size cs) s' ∧
      s'.input = s.input.consume (x ++ [10]).length := by
  obtain ⟨t, ht, hp, henc, hlen⟩ := h.tx
  have hroom := h.room
  obtain ⟨s1, h1, k1⟩ := putRequest_step
    { t with requestMessageLen := wrapAdd t.requestMessageLen (x ++ [10]).length } s
  have hstate : handleRequestState e s = (.ok (), { s1 with
      input := s1.input.consume (x ++ [10]).length
      req := { s1.req with
        bytesConsumed := (s1.input.consume (x ++ [10]).length).position, state := .bodyChunkedLength } }) := by
    rw [handleRequestState_bodyChunkedDataEnd hw]
    unfold requestBodyChunkedDataEnd
    rw [M.bind_ok (requestTx_some ht), M.bind_state, hin, takeTillLf_line hx]
    dsimp only
    rw [M.bind_ok h1]
    rfl
  have hst := requestStep_next hg hstate
    (by show s1.req.status = _ ∨ s1.req.status = _; rw [k1.req]; exact h.status)
    (by show State.bodyChunkedLength ≠ _; decide)
  have hb : s1.req.buffered = s.req.buffered := by rw [k1.req]
  refine ⟨_, hst, ⟨rfl, ?_, ?_, ?_, ?_, ?_, { t with
    requestMessageLen := wrapAdd t.requestMessageLen (x ++ [10]).length }, ?_, hp, henc, ?_⟩,
    ⟨⟨[], ?_, ?_⟩, k1.request, ?_⟩, ?_⟩
  · show ∀ c ∈ s1.req.buf, _
    rw [k1.req]; exact h.buf
  · show s1.req.buffered + cs.length + _ ≤ _
    omega
  · intro c hc; exact h.valid c (hch ▸ hc)
  · show s1.req.status = _ ∨ s1.req.status = _
    rw [k1.req]; exact h.status
  · show s1.req.receiver = none
    rw [k1.req]; exact h.receiver
  · show s1.txs.get s1.txs.request = _
    rw [k1.request]; exact k1.here
  · rw [hbody] at hlen; exact hlen
  · rw [hbody]; rfl
  · show delivered _ _ s1.trace = _
    rw [k1.trace]; simp
  · show s1.req.buffered + cs.length ≤ _
    omega
  · show s1.input.consume _ = _
    rw [k1.input]

/-- One round. Either the input is used up, or more rounds follow. -/
theorem reqChunk_round {e : Env} (hcb : CallbacksOK e) {m : Nat} {w : Want} {s : Conn} {ts ts' : List Token}
    {extra : Bytes} (h : ReqChunk e m w s) (hg : s.input.gapLen = none) (hts : ts ++ ts' = w.tokens)
    (hin : s.input.asSlice = bytesOf ts ++ extra) (hx : extra = [] ∨ ts' = [] ∧ ts ≠ []) :
    (∃ s' w', requestStep e s = (.ok (some .data), s') ∧ extra = [] ∧ ReqChunk e m w' s' ∧ ReqMoved w s w' s' ∧
      w'.tokens = ts') ∨
    ∃ s' w' ts1, requestStep e s = (.ok none, s') ∧ ReqChunk e m w' s' ∧ ReqMoved w s w' s' ∧
      ts1.length < ts.length ∧ ts1 ++ ts' = w'.tokens ∧ s'.input.gapLen = none ∧
      s'.input.asSlice = bytesOf ts1 ++ extra := by
  have use : ∀ {n : Nat} {a b : Bytes} {s' : Conn}, s.input.asSlice = a ++ b → n = a.length →
      s'.input = s.input.consume n → s'.input.gapLen = none ∧ s'.input.asSlice = b := by
    intro n a b s' ha hn hs
    rw [hs]
    refine ⟨hg, ?_⟩
    rw [PData.consume_asSlice (by rw [ha, hn]; simp), ha, hn, List.drop_left]
  cases ahead hts with
  | sizeNone cs h' =>
    have hx : extra = [] := by rcases hx with h | h; exact h; exact absurd rfl h.2
    subst hx
    obtain ⟨s', hs, hc, hm⟩ := reqChunk_size_none h hg hin
    exact .inl ⟨s', _, hs, rfl, hc, hm, h'.symm⟩
  | size c cs ts h' =>
    rw [bytesOf_cons_line, List.append_assoc] at hin
    obtain ⟨s', hs, hc, hm, hi⟩ := reqChunk_size h hg hin
    exact .inr ⟨s', _, ts, hs, hc, hm, by simp, h', use hin rfl hi⟩
  | dataSome d d' cs hd h' =>
    have hx : extra = [] := by
      rcases hx with h | h
      · exact h
      · rw [h'] at h; simp [Want.tokens, hd] at h
    subst hx
    rw [bytesOf_byte, List.append_nil] at hin
    obtain ⟨s', hs, hc, hm⟩ := reqChunk_data_some hcb h hg hd hin
    exact .inl ⟨s', _, hs, rfl, hc, hm, h'.symm⟩
  | data d cs ts h' =>
    rw [bytesOf_append, bytesOf_byte, List.append_assoc] at hin
    obtain ⟨s', hs, hc, hm, hi⟩ := reqChunk_data hcb h hg hin
    refine .inr ⟨s', _, ts, hs, hc, hm, ?_, h', use hin rfl hi⟩
    have := h.fits.2.2
    cases d with
    | nil => exact absurd rfl this
    | cons c d => simp; omega
  | crlfNone cs h' =>
    have hx : extra = [] := by rcases hx with h | h; exact h; exact absurd rfl h.2
    subst hx
    obtain ⟨s', hs, hc, hm⟩ := reqChunk_break_none (w' := .crlf cs) h id (fun _ h => h)
      (fun _ _ h1 _ h => h1.symm.trans h) rfl rfl hg
      (by rw [hin]; rfl) (by rw [hin]; intro c hc; cases hc)
    exact .inl ⟨s', _, hs, rfl, hc, hm, h'.symm⟩
  | crlfOne cs h' =>
    have hx : extra = [] := by
      rcases hx with h | h
      · exact h
      · rw [h'] at h; simp [Want.tokens] at h
    subst hx
    obtain ⟨s', hs, hc, hm⟩ := reqChunk_break_none (w' := .lf cs) h id (fun _ h => h)
      (fun _ _ h1 _ h => h1.symm.trans h) rfl rfl hg
      (by rw [hin]; rfl) (by rw [hin]; intro c hc; simpa [bytesOf, Token.bytes] using hc)
    exact .inl ⟨s', _, hs, rfl, hc, hm, h'.symm⟩
  | crlf cs ts h' =>
    have hin2 : s.input.asSlice = [13] ++ 10 :: (bytesOf ts ++ extra) := hin
    obtain ⟨s', hs, hc, hm, hi⟩ := reqChunk_break (cs := cs) (x := [13]) h h.fits rfl rfl hg
      (by simp [Want.pairs]) (by decide) hin2
    exact .inr ⟨s', _, ts, hs, hc, hm, by simp; omega, h', use (a := [13, 10]) hin2 rfl hi⟩
  | lfNone cs h' =>
    have hx : extra = [] := by rcases hx with h | h; exact h; exact absurd rfl h.2
    subst hx
    obtain ⟨s', hs, hc, hm⟩ := reqChunk_break_none (w' := .lf cs) h id (fun _ h => h)
      (fun _ _ h1 _ h => h1.symm.trans h) rfl rfl hg
      (by rw [hin]; rfl) (by rw [hin]; intro c hc; cases hc)
    exact .inl ⟨s', _, hs, rfl, hc, hm, h'.symm⟩
  | lf cs ts h' =>
    have hin2 : s.input.asSlice = [] ++ 10 :: (bytesOf ts ++ extra) := hin
    obtain ⟨s', hs, hc, hm, hi⟩ := reqChunk_break (cs := cs) (x := []) h h.fits rfl rfl hg
      (by simp [Want.pairs]) (by decide) hin2
    exact .inr ⟨s', _, ts, hs, hc, hm, by simp, h', use (a := [10]) hin2 rfl hi⟩

/-- All the rounds of a call that does not reach the end of the body. -/
theorem reqChunk_loop {e : Env} (hcb : CallbacksOK e) {m : Nat} (N : Nat) {w : Want} {s : Conn} {ts ts' : List Token}
    (h : ReqChunk e m w s) (hg : s.input.gapLen = none) (hts : ts ++ ts' = w.tokens)
    (hin : s.input.asSlice = bytesOf ts) (hN : ts.length < N) :
    ∃ s' w', requestLoop e N s = (.ok (some .data), s') ∧ ReqChunk e m w' s' ∧ ReqMoved w s w' s' ∧
      w'.tokens = ts' := by
  induction N generalizing w s ts with
  | zero => omega
  | succ N ih =>
    rcases reqChunk_round hcb (extra := []) h hg hts (by rw [hin, List.append_nil]) (.inl rfl) with
      ⟨s', w', hs, -, hc, hm, hw⟩ | ⟨s', w', ts1, hs, hc, hm, hl, hts1, hg1, hin1⟩
    · exact ⟨s', w', requestLoop_some (by omega) hs, hc, hm, hw⟩
    · rw [List.append_nil] at hin1
      obtain ⟨s2, w2, hs2, hc2, hm2, hw2⟩ := ih hc hg1 hts1 hin1 (by omega)
      exact ⟨s2, w2, by rw [requestLoop_none hs, hs2], hc2, hm.trans hm2, hw2⟩

/-- The rounds of the call in which the last chunk-size line comes. -/
theorem reqChunk_rounds {e : Env} (hcb : CallbacksOK e) {m : Nat} {w : Want} {s : Conn} {ts : List Token}
    {line rest : Bytes} (h : ReqChunk e m w s) (hg : s.input.gapLen = none) (hts : ts = w.tokens)
    (hin : s.input.asSlice = bytesOf ts ++ (line ++ rest)) (hline : SizeLine line 0) (hm : line.length ≤ m) :
    ∃ k s1, Rounds (requestStep e) k s s1 ∧ k ≤ ts.length + 1 ∧ s1.req.state = .headers ∧
      delivered .requestBodyData s.txs.request s1.trace =
        delivered .requestBodyData s.txs.request s.trace ++ w.body.map some ∧ s1.input.asSlice = rest := by
  induction hn : ts.length using Nat.strongRecOn generalizing w s ts with
  | _ n ih =>
  subst hn
  have hne : line ++ rest ≠ [] := by
    obtain ⟨c, r, rfl, -⟩ := sizeLine_head hline
    simp
  by_cases h0 : ts = []
  · subst h0
    cases w with
    | size cs =>
      cases cs with
      | nil =>
        obtain ⟨s', hs, hst, hrq, hd, hi⟩ := reqChunk_last h hg hline hm hin
        exact ⟨1, s', .next hs (.zero _), by simp, hst, by rw [hd]; simp [Want.body, carried], hi⟩
      | cons c cs => exact absurd hts (by simp [Want.tokens, encoded_cons])
    | data d cs => exact absurd hts (by simp [Want.tokens])
    | crlf cs => exact absurd hts (by simp [Want.tokens])
    | lf cs => exact absurd hts (by simp [Want.tokens])
  · rcases reqChunk_round hcb h hg (ts' := []) (by rw [List.append_nil]; exact hts) hin (.inr ⟨rfl, h0⟩) with
      ⟨s', w', -, hx, -⟩ | ⟨s', w', ts1, hs, hc, hmv, hl, hts1, hg1, hin1⟩
    · exact absurd hx hne
    · rw [List.append_nil] at hts1
      obtain ⟨k, s2, hr, hk, hst, hd, hi⟩ := ih ts1.length hl hc hg1 hts1 hin1 rfl
      obtain ⟨x, hx, hd1⟩ := hmv.body
      refine ⟨k + 1, s2, .next hs hr, by omega, hst, ?_, hi⟩
      rw [hmv.request] at hd
      rw [hd, hd1, hx, List.map_append, List.append_assoc]

/-! Calls. -/

theorem requestLoop_rounds {e : Env} {k : Nat} (N : Nat) {s s1 : Conn} (h : Rounds (requestStep e) k s s1) :
    requestLoop e (k + N) s = requestLoop e N s1 := by
  induction h with
  | zero => simp
  | next hs _ ih =>
    rw [Nat.add_right_comm, requestLoop_none hs]
    exact ih

theorem ReqChunk.fed {e : Env} {m : Nat} {w : Want} {s : Conn} (h : ReqChunk e m w s) (b : Bytes) :
    ReqChunk e m w (requestFed b s) := by
  obtain ⟨t, ht⟩ := h.tx
  refine ⟨?_, h.buf, h.room, h.valid, h.status, h.receiver, t, ht⟩
  have := h.fits
  cases w <;> exact this

theorem ReqChunk.bytes {e : Env} {m : Nat} {w : Want} {s : Conn} (h : ReqChunk e m w s) {ts ts' : List Token}
    (hts : ts ++ ts' = w.tokens) : ts.length ≤ (bytesOf ts).length :=
  bytesOf_length fun t ht => token_bytes (fun c hc => (h.valid c hc).1) t (by rw [← hts]; simp [ht])

theorem ReqChunk.alive {e : Env} {m : Nat} {w : Want} {s : Conn} (h : ReqChunk e m w s) :
    s.req.status ≠ .stop ∧ s.req.status ≠ .error ∧ s.req.status ≠ .tunnel := by
  rcases h.status with h | h <;> rw [h] <;> decide

/-- One call that does not reach the end of the body. -/
theorem reqChunk_call {e : Env} (hcb : CallbacksOK e) {m : Nat} {w : Want} {s : Conn} {ts ts' : List Token}
    (h : ReqChunk e m w s) (hts : ts ++ ts' = w.tokens) (hne : ts ≠ []) :
    ∃ s' w', (Op.request (.data (bytesOf ts))).run e s = (.ok (some .data), s') ∧ ReqChunk e m w' s' ∧
      ReqMoved w s w' s' ∧ w'.tokens = ts' := by
  have hl := h.bytes hts
  have hb : bytesOf ts ≠ [] := by
    intro hb
    rw [hb] at hl
    exact hne (List.length_eq_zero_iff.1 (by simpa using hl))
  obtain ⟨h1, h2, h3⟩ := h.alive
  obtain ⟨s', w', hs, hc, hm, hw⟩ := reqChunk_loop hcb (16 * ((bytesOf ts).length + 2 * s.req.buf.length + 2))
    (h.fed (bytesOf ts)) rfl hts rfl (by omega)
  exact ⟨s', w', (requestData_data hb h1 h2 h3).trans hs, hc, ⟨hm.body, hm.request, hm.buffered⟩, hw⟩

/-- Any number of such calls. -/
theorem reqChunk_feed {e : Env} (hcb : CallbacksOK e) {m : Nat} (segs : List (List Token)) {w : Want} {s : Conn}
    {ts' : List Token} (h : ReqChunk e m w s) (hts : segs.flatten ++ ts' = w.tokens) (hne : ∀ ts ∈ segs, ts ≠ []) :
    ∃ w', (∀ a ∈ requestAnswers e (segs.map fun ts => .data (bytesOf ts)) s, a = .ok (some .data)) ∧
      ReqChunk e m w' (feedRequest e (segs.map fun ts => .data (bytesOf ts)) s) ∧
      ReqMoved w s w' (feedRequest e (segs.map fun ts => .data (bytesOf ts)) s) ∧ w'.tokens = ts' := by
  induction segs generalizing w s with
  | nil =>
    exact ⟨w, by simp [requestAnswers], h, ⟨⟨[], rfl, by simp [feedRequest]⟩, rfl, Nat.le_refl _⟩, hts.symm⟩
  | cons ts segs ih =>
    rw [List.flatten_cons, List.append_assoc] at hts
    obtain ⟨s1, w1, hs, hc, hm, hw⟩ := reqChunk_call hcb h hts (hne ts (by simp))
    obtain ⟨w', ha, hc', hm', hw'⟩ := ih hc hw.symm (fun ts hts => hne ts (by simp [hts]))
    have haft : (Op.request (.data (bytesOf ts))).after e s = s1 := congrArg Prod.snd hs
    have hfeed : feedRequest e ((ts :: segs).map fun ts => .data (bytesOf ts)) s =
        feedRequest e (segs.map fun ts => .data (bytesOf ts)) s1 := by
      show feedRequest e (segs.map fun ts => .data (bytesOf ts)) ((Op.request (.data (bytesOf ts))).after e s) = _
      rw [haft]
    rw [hfeed]
    refine ⟨w', ?_, hc', hm.trans hm', hw'⟩
    intro a ha'
    rw [List.map_cons] at ha'
    unfold requestAnswers at ha'
    rw [hs, haft] at ha'
    rcases List.mem_cons.1 ha' with rfl | ha'
    · rfl
    · exact ha a ha'

/-- The call in which the last chunk-size line comes. -/
theorem reqChunk_call_last {e : Env} (hcb : CallbacksOK e) {m : Nat} {w : Want} {s : Conn} {line rest : Bytes}
    (h : ReqChunk e m w s) (hline : SizeLine line 0) (hm : line.length ≤ m) :
    ∃ k s1, Rounds (requestStep e) k (requestLoopStart e (.data (bytesOf w.tokens ++ (line ++ rest))) s) s1 ∧
      s1.req.state = .headers ∧
      delivered .requestBodyData s.txs.request s1.trace =
        delivered .requestBodyData s.txs.request s.trace ++ w.body.map some ∧ s1.input.asSlice = rest ∧
      s1.trace <+: ((Op.request (.data (bytesOf w.tokens ++ (line ++ rest)))).after e s).trace := by
  have hl := h.bytes (ts := w.tokens) (ts' := []) (by simp)
  generalize hb : bytesOf w.tokens ++ (line ++ rest) = b
  have hlb : w.tokens.length ≤ b.length := by rw [← hb, List.length_append]; omega
  have hne : b ≠ [] := by
    obtain ⟨c, r, rfl, -⟩ := sizeLine_head hline
    rw [← hb]
    simp
  obtain ⟨h1, h2, h3⟩ := h.alive
  obtain ⟨k, s1, hr, hk, hst, hd, hi⟩ := reqChunk_rounds hcb (h.fed b) rfl rfl hb.symm hline hm
  refine ⟨k, s1, hr, hst, hd, hi, ?_⟩
  show s1.trace <+: (requestData e (.ofBytes b) s).2.trace
  rw [requestData_data hne h1 h2 h3]
  have hN : 16 * (b.length + 2 * s.req.buf.length + 2) = k + (16 * (b.length + 2 * s.req.buf.length + 2) - k) := by
    omega
  rw [hN, requestLoop_rounds _ hr]
  exact (requestLoop_frame e _ s1).trace

end Model

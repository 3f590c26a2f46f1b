/-
Bodies of known length, one round and one call.
-/
import Verif.Lemmas.ConnBody

namespace Model

open M Spec

theorem handedOut_length (d : PData) : (handedOut d).length = d.len := by
  unfold handedOut PData.len
  cases h : d.gapLen with
  | some g => simp only [List.length_replicate]
  | none => simp

theorem handedOut_toPData (c : Chunk) : handedOut c.toPData = content c := by
  cases c with
  | data b => simp [handedOut, Chunk.toPData, PData.ofBytes, PData.asSlice, content]
  | gap n =>
    have hl : (PData.ofGap n).len = n := toPData_len (.gap n)
    show List.replicate (PData.ofGap n).len none = _
    rw [hl]
    rfl

theorem content_length (c : Chunk) : (content c).length = chunkLength c := by
  cases c <;> simp [content, chunkLength]

theorem handedOut_consume (d : PData) (n : Nat) (hn : n ≤ d.len) :
    handedOut (d.consume n) = (handedOut d).drop n := by
  unfold handedOut
  have hg : (d.consume n).gapLen = d.gapLen := rfl
  rw [hg]
  cases h : d.gapLen with
  | some g =>
    simp only [PData.len, PData.consume, h, List.drop_replicate]
    congr 1
    split <;> split <;> omega
  | none =>
    have hl : d.len = d.asSlice.length := by unfold PData.len; rw [h]
    rw [hl] at hn
    simp only [PData.consume_asSlice hn, List.map_drop]

theorem consume_len (d : PData) (n : Nat) : (d.consume n).len = d.len - n := by
  rw [PData.len_eq, PData.len_eq]
  show d.total - (d.position + n) = _
  omega

/-- One piece of a request body is handed out. -/
theorem requestIdentityData_step {e : Env} (hcb : CallbacksOK e) {s : Conn} {t : Tx} {m : Nat}
    (hm : m ≤ s.input.len) (ht : s.txs.get s.txs.request = some t)
    (henc : t.requestContentEncodingProcessing = .none) (hlen : t.requestEntityLen + m < 2 ^ 64) :
    ∃ s' t' evs, requestIdentityData e m s = (.ok (), s') ∧ TxStep s.txs.request t' evs s s' ∧
      delivered .requestBodyData s.txs.request evs = (handedOut s.input).take m ∧
      t'.requestProgress = t.requestProgress ∧ t'.requestContentEncodingProcessing = .none ∧
      t'.requestEntityLen ≤ t.requestEntityLen + m := by
  unfold requestIdentityData
  rw [M.bind_state]
  split
  next hg =>
    obtain ⟨g, hg⟩ := Option.isSome_iff_exists.1 hg
    rw [M.bind_ok (requestTx_some ht)]
    obtain ⟨s1, h1, k1⟩ := putRequest_step
      { t with requestMessageLen := wrapAdd t.requestMessageLen m } s
    rw [M.bind_ok h1]
    obtain ⟨s2, h2, k2⟩ := requestRunHookBodyData_step hcb (.ofGap m) (k1.request ▸ k1.here)
    rw [k1.request] at k2
    refine ⟨s2, _, _, h2, k1.trans k2, ?_, rfl, henc, Nat.le_add_right _ _⟩
    rw [List.nil_append, delivered_requestBodyEvents]
    have hl : (PData.ofGap m).len = m := toPData_len (.gap m)
    simp only [handedOut, hg, List.take_replicate]
    show List.replicate (PData.ofGap m).len none = _
    rw [hl, Nat.min_eq_left hm]
  next hg =>
    have hg' : s.input.gapLen = none := by simpa [PData.isGap] using hg
    have hl : s.input.len = s.input.asSlice.length := by unfold PData.len; rw [hg']
    have hp : inputPrefix m s = (.ok (s.input.asSlice.take m), s) := by
      unfold inputPrefix
      rw [if_pos (by omega)]
    rw [M.bind_ok hp]
    have hlm : (s.input.asSlice.take m).length = m := by rw [List.length_take]; omega
    obtain ⟨s2, h2, k2⟩ := requestBodyData_step hcb (some (s.input.asSlice.take m)) ht henc
      (by simp only [Option.getD_some, hlm]; exact hlen)
    refine ⟨s2, _, _, h2, k2, ?_, rfl, henc, ?_⟩
    · rw [delivered_requestBodyEvents]
      simp [handedOut, hg', PData.asSlice]
    · simp only [Option.getD_some, hlm]
      exact Nat.le_refl _

theorem responseIdentityData_step {e : Env} (hcb : CallbacksOK e) {s : Conn} {t : Tx} {m : Nat}
    (hm : m ≤ s.input.len) (ht : s.txs.get s.txs.response = some t)
    (henc : t.responseContentEncodingProcessing = .none) :
    ∃ s' t' evs, responseIdentityData e m s = (.ok (), s') ∧ TxStep s.txs.response t' evs s s' ∧
      delivered .responseBodyData s.txs.response evs = (handedOut s.input).take m ∧
      t'.responseProgress = t.responseProgress ∧ t'.responseContentEncodingProcessing = .none := by
  unfold responseIdentityData
  rw [M.bind_state]
  split
  next hg =>
    obtain ⟨g, hg⟩ := Option.isSome_iff_exists.1 hg
    rw [M.bind_ok (responseTx_some ht)]
    obtain ⟨s1, h1, k1⟩ := putResponse_step
      { t with responseMessageLen := wrapAdd t.responseMessageLen m } s
    rw [M.bind_ok h1]
    obtain ⟨s2, h2, k2⟩ := responseRunHookBodyData_step hcb (.ofGap m) (k1.response ▸ k1.here)
    rw [k1.response] at k2
    refine ⟨s2, _, _, h2, k1.trans k2, ?_, rfl, henc⟩
    rw [List.nil_append, delivered_responseBodyEvents]
    have hl : (PData.ofGap m).len = m := toPData_len (.gap m)
    simp only [handedOut, hg, List.take_replicate]
    show List.replicate (PData.ofGap m).len none = _
    rw [hl, Nat.min_eq_left hm]
  next hg =>
    have hg' : s.input.gapLen = none := by simpa [PData.isGap] using hg
    have hl : s.input.len = s.input.asSlice.length := by unfold PData.len; rw [hg']
    have hp : inputPrefix m s = (.ok (s.input.asSlice.take m), s) := by
      unfold inputPrefix
      rw [if_pos (by omega)]
    rw [M.bind_ok hp]
    obtain ⟨s2, h2, k2⟩ := responseBodyData_step hcb (some (s.input.asSlice.take m)) ht henc
    refine ⟨s2, _, _, h2, k2, ?_, rfl, henc⟩
    rw [delivered_responseBodyEvents]
    simp [handedOut, hg', PData.asSlice]

/-- One round in which the body does not end. -/
theorem requestIdentity_round_inside {e : Env} (hcb : CallbacksOK e) {s : Conn} {n : Nat}
    (h : ReceivingRequest s n) (h0 : s.input.len ≠ 0) (hn : s.input.len < n) :
    ∃ s', requestStep e s = (.ok (some .data), s') ∧ ReceivingRequest s' (n - s.input.len) ∧
      s'.txs.request = s.txs.request ∧ s'.req.bytesConsumed = s.input.position + s.input.len ∧
      delivered .requestBodyData s.txs.request s'.trace =
        delivered .requestBodyData s.txs.request s.trace ++ handedOut s.input := by
  obtain ⟨t, ht, hp, henc, hlen⟩ := h.tx
  obtain ⟨s1, t1, evs, h1, k1, hd, hp1, henc1, hlen1⟩ :=
    requestIdentityData_step hcb (Nat.le_refl s.input.len) ht henc (by omega)
  have hstate : handleRequestState e s = (.error (.status .data),
      { s1 with
        input := s1.input.consume s.input.len
        req := { s1.req with
          bytesConsumed := (s1.input.consume s.input.len).position
          bodyDataLeft := some (n - s.input.len) } }) := by
    rw [handleRequestState_bodyIdentity h.state]
    unfold requestBodyIdentity
    rw [M.bind_state, h.left]
    dsimp only
    rw [Nat.min_eq_left (by omega), if_neg h0, M.bind_ok h1]
    unfold requestConsume
    rw [M.bind_modify]
    unfold setReq
    rw [M.bind_modify, if_pos (by omega)]
    rfl
  refine ⟨_, requestStep_data (t := t1) (by rw [h.state]; simp [requestGapState]) (.inl hstate) ?_ ?_, ?_, ?_,
    ?_, ?_⟩
  · show s1.req.receiver = none
    rw [k1.req]
    exact h.receiver
  · show s1.txs.get s1.txs.request = some t1
    rw [k1.request]
    exact k1.here
  · refine ⟨?_, rfl, .inr rfl, ?_, ?_⟩
    · show s1.req.state = _
      rw [k1.req]
      exact h.state
    · show s1.req.receiver = none
      rw [k1.req]
      exact h.receiver
    · refine ⟨t1, ?_, hp1.trans hp, henc1, by omega⟩
      show s1.txs.get s1.txs.request = some t1
      rw [k1.request]
      exact k1.here
  · exact k1.request
  · show (s1.input.consume s.input.len).position = _
    rw [k1.input]
    rfl
  · show delivered _ _ s1.trace = _
    rw [k1.trace, delivered_append, hd, List.take_of_length_le (by rw [handedOut_length]; exact Nat.le_refl _)]

theorem requestHandleStateChange_ok {e : Env} {s : Conn} (h : s.req.state ≠ .headers) :
    requestHandleStateChange e s = (.ok (), { s with req := { s.req with statePrevious := s.req.state } }) := by
  unfold requestHandleStateChange
  rw [M.bind_state]
  split
  next hs =>
    rw [← hs]
    rfl
  next =>
    have : (s.req.state == State.headers) = false := by simp [h]
    rw [this]
    rfl

theorem responseHandleStateChange_ok {e : Env} {s : Conn} (h : s.resp.state ≠ .headers) :
    responseHandleStateChange e s = (.ok (), { s with resp := { s.resp with statePrevious := s.resp.state } }) := by
  unfold responseHandleStateChange
  rw [M.bind_state]
  split
  next hs =>
    rw [← hs]
    rfl
  next =>
    have : (s.resp.state == State.headers) = false := by simp [h]
    rw [this]
    rfl

/-- The round in which the body ends. -/
theorem requestIdentity_round_last {e : Env} (hcb : CallbacksOK e) {s : Conn} {n : Nat}
    (h : ReceivingRequest s n) (hn0 : n ≠ 0) (hn : n ≤ s.input.len) :
    ∃ s', requestStep e s = (.ok none, s') ∧ s'.req.state = .finalize ∧ s'.input = s.input.consume n ∧
      s'.txs.request = s.txs.request ∧ s'.req.status = s.req.status ∧
      delivered .requestBodyData s.txs.request s'.trace =
        delivered .requestBodyData s.txs.request s.trace ++ (handedOut s.input).take n := by
  obtain ⟨t, ht, hp, henc, hlen⟩ := h.tx
  obtain ⟨s1, t1, evs, h1, k1, hd, hp1, henc1, hlen1⟩ :=
    requestIdentityData_step hcb hn ht henc hlen
  generalize hs2 : ({ s1 with
        input := s1.input.consume n
        req := { s1.req with
          bytesConsumed := (s1.input.consume n).position
          bodyDataLeft := some (n - n), state := .finalize } } : Conn) = s2
  have hx : s2.txs = s1.txs := by subst hs2; rfl
  have hi : s2.input = s1.input.consume n := by subst hs2; rfl
  have hst : s2.req.state = .finalize ∧ s2.req.status = s1.req.status := by subst hs2; exact ⟨rfl, rfl⟩
  have htr : s2.trace = s1.trace := by subst hs2; rfl
  have hr : s2.txs.request = s.txs.request := by rw [hx]; exact k1.request
  obtain ⟨s3, h3, k3⟩ := requestBodyData_step hcb none (s := s2) (t := t1)
    (by rw [hr, hx]; exact k1.here) henc1 (by simp only [Option.getD_none, List.length_nil]; omega)
  have hstate : handleRequestState e s = (.ok (), s3) := by
    rw [handleRequestState_bodyIdentity h.state]
    unfold requestBodyIdentity
    rw [M.bind_state, h.left]
    dsimp only
    rw [Nat.min_eq_right hn, if_neg hn0, M.bind_ok h1]
    unfold requestConsume
    rw [M.bind_modify]
    unfold setReq
    rw [M.bind_modify, if_neg (by omega), M.bind_modify]
    show requestBodyData e none _ = _
    rw [← h3, ← hs2]
  refine ⟨_, requestStep_ok (by rw [h.state]; simp [requestGapState]) hstate ?_
    (requestHandleStateChange_ok ?_), ?_, ?_, ?_, ?_, ?_⟩
  · rw [k3.req, hst.2, k1.req]
    rcases h.status with h | h <;> rw [h] <;> decide
  · rw [k3.req, hst.1]
    decide
  · show s3.req.state = _
    rw [k3.req, hst.1]
  · show s3.input = _
    rw [k3.input, hi, k1.input]
  · show s3.txs.request = _
    rw [k3.request, hr]
  · show s3.req.status = _
    rw [k3.req, hst.2, k1.req]
  · show delivered _ _ s3.trace = _
    rw [k3.trace, htr, k1.trace, delivered_append, delivered_append, hd, hr, delivered_requestBodyEvents]
    simp [handedOut, PData.asSlice]

/-- A chunk arrives. -/
theorem request_enter {e : Env} {s : Conn} {n : Nat} (h : ReceivingRequest s n) (c : Chunk)
    (hc : chunkLength c ≠ 0) :
    ∃ N s1, (Op.request c).run e s = requestLoop e (N + 1) s1 ∧ requestLoopStart e c s = s1 ∧
      ReceivingRequest s1 n ∧ s1.input = c.toPData ∧ s1.trace = s.trace ∧ s1.txs.request = s.txs.request := by
  obtain ⟨t, ht, hp, henc, hlen⟩ := h.tx
  have hst : s.req.status ≠ .stop ∧ s.req.status ≠ .error ∧ s.req.status ≠ .tunnel := by
    rcases h.status with h | h <;> rw [h] <;> decide
  cases c with
  | data b =>
    have hb : b ≠ [] := by rintro rfl; exact hc rfl
    refine ⟨_, requestFed b s, requestData_data hb hst.1 hst.2.1 hst.2.2, rfl, ⟨h.state, h.left, h.status,
      h.receiver, t, ht, hp, henc, hlen⟩, rfl, rfl, rfl⟩
  | gap g =>
    have hg : g ≠ 0 := hc
    have hl : (Chunk.gap g).toPData.len = g := toPData_len (.gap g)
    generalize hs1 : ({ requestOffered (.gap g) s with
      requestChunkCount := s.requestChunkCount + 1
      requestDataCounter := wrapAdd s.requestDataCounter (chunkLength (.gap g))
      resp := if s.resp.status = .dataOther then { s.resp with status := .data } else s.resp } : Conn) = s1
    have hreq : s1.req = { s.req with bytesConsumed := 0 } := by subst hs1; rfl
    have htxs : s1.txs = s.txs := by subst hs1; rfl
    have htr : s1.trace = s.trace := by subst hs1; rfl
    have hin : s1.input = (Chunk.gap g).toPData := by subst hs1; rfl
    have hnote : requestNoteGap e s1 = (.ok none,
        { s1 with txs := s1.txs.set s1.txs.request (t.setFlags Flag.REQUEST_MISSING_BYTES) }) := by
      rw [requestNoteGap_eq]
      unfold Txs.requestMut Txs.entry
      rw [htxs, ht]
      dsimp only
      rw [if_neg (by rw [hp]; simp)]
    have hstart : requestLoopStart e (.gap g) s =
        { s1 with txs := s1.txs.set s1.txs.request (t.setFlags Flag.REQUEST_MISSING_BYTES) } := by
      unfold requestLoopStart requestEarly
      rw [hs1, M.bind_state, if_pos (by rw [hin]; rfl), hnote]
    have hrun : (Op.request (.gap g)).run e s = requestLoop e (requestRounds s1)
        { s1 with txs := s1.txs.set s1.txs.request (t.setFlags Flag.REQUEST_MISSING_BYTES) } := by
      show requestData e (Chunk.gap g).toPData s = _
      rw [requestData_eq, if_neg hst.1, if_neg hst.2.1,
        if_neg (by rw [PData.isEmpty, hl]; simp [hg]), if_neg hst.2.2, hl]
      subst hs1
      exact requestProcess_gap_none (by rfl) hnote
    refine ⟨requestRounds s1 - 1, _, ?_, hstart, ⟨?_, ?_, ?_, ?_, ?_⟩, hin, htr, ?_⟩
    · rw [hrun]
      have : requestRounds s1 = requestRounds s1 - 1 + 1 := by unfold requestRounds; omega
      rw [← this]
    · rw [hreq]; exact h.state
    · rw [hreq]; exact h.left
    · rw [hreq]; exact h.status
    · rw [hreq]; exact h.receiver
    · refine ⟨t.setFlags Flag.REQUEST_MISSING_BYTES, ?_, hp, henc, hlen⟩
      exact (Txs.lookup_put _ _ _ _).trans (if_pos rfl)
    · show s1.txs.request = _
      rw [htxs]

/-- The same for a response. -/
theorem responseIdentity_round_inside {e : Env} (hcb : CallbacksOK e) {s : Conn} {n : Nat}
    (h : ReceivingResponse s n) (h0 : s.input.len ≠ 0) (hn : s.input.len < n) :
    ∃ s', responseStep e s = (.ok (some .data), s') ∧ ReceivingResponse s' (n - s.input.len) ∧
      s'.txs.response = s.txs.response ∧ s'.resp.bytesConsumed = s.input.position + s.input.len ∧
      delivered .responseBodyData s.txs.response s'.trace =
        delivered .responseBodyData s.txs.response s.trace ++ handedOut s.input := by
  obtain ⟨t, ht, hp, henc⟩ := h.tx
  obtain ⟨s1, t1, evs, h1, k1, hd, hp1, henc1⟩ :=
    responseIdentityData_step hcb (Nat.le_refl s.input.len) ht henc
  have hstate : handleResponseState e s = (.error (.status .data),
      { s1 with
        input := s1.input.consume s.input.len
        resp := { s1.resp with
          bytesConsumed := (s1.input.consume s.input.len).position
          bodyDataLeft := some (n - s.input.len) } }) := by
    rw [handleResponseState_bodyIdentityClKnown h.state]
    unfold responseBodyIdentityClKnown
    rw [M.bind_state, if_neg (by rcases h.status with h | h <;> rw [h] <;> decide)]
    unfold responseIdentityOpen
    rw [M.bind_state, h.left]
    dsimp only
    rw [Nat.min_eq_left (by omega), if_neg h0, M.bind_ok h1]
    unfold responseConsume
    rw [M.bind_modify]
    unfold setResp
    rw [M.bind_modify, if_pos (by omega)]
    rfl
  refine ⟨_, responseStep_data (t := t1) (by rw [h.state]; simp [responseGapState]) (.inl hstate) ?_ ?_, ?_, ?_,
    ?_, ?_⟩
  · show s1.resp.receiver = none
    rw [k1.resp]
    exact h.receiver
  · show s1.txs.get s1.txs.response = some t1
    rw [k1.response]
    exact k1.here
  · refine ⟨?_, rfl, .inr rfl, ?_, ?_⟩
    · show s1.resp.state = _
      rw [k1.resp]
      exact h.state
    · show s1.resp.receiver = none
      rw [k1.resp]
      exact h.receiver
    · refine ⟨t1, ?_, hp1.trans hp, henc1⟩
      show s1.txs.get s1.txs.response = some t1
      rw [k1.response]
      exact k1.here
  · exact k1.response
  · show (s1.input.consume s.input.len).position = _
    rw [k1.input]
    rfl
  · show delivered _ _ s1.trace = _
    rw [k1.trace, delivered_append, hd, List.take_of_length_le (by rw [handedOut_length]; exact Nat.le_refl _)]

/-- The same for a response. -/
theorem responseIdentity_round_last {e : Env} (hcb : CallbacksOK e) {s : Conn} {n : Nat}
    (h : ReceivingResponse s n) (hn0 : n ≠ 0) (hn : n ≤ s.input.len) :
    ∃ s', responseStep e s = (.ok none, s') ∧ s'.resp.state = .finalize ∧ s'.input = s.input.consume n ∧
      s'.txs.response = s.txs.response ∧ s'.resp.status = s.resp.status ∧
      delivered .responseBodyData s.txs.response s'.trace =
        delivered .responseBodyData s.txs.response s.trace ++ (handedOut s.input).take n := by
  obtain ⟨t, ht, hp, henc⟩ := h.tx
  obtain ⟨s1, t1, evs, h1, k1, hd, hp1, henc1⟩ :=
    responseIdentityData_step hcb hn ht henc
  generalize hs2 : ({ s1 with
        input := s1.input.consume n
        resp := { s1.resp with
          bytesConsumed := (s1.input.consume n).position
          bodyDataLeft := some (n - n), state := .finalize } } : Conn) = s2
  have hx : s2.txs = s1.txs := by subst hs2; rfl
  have hi : s2.input = s1.input.consume n := by subst hs2; rfl
  have hst : s2.resp.state = .finalize ∧ s2.resp.status = s1.resp.status := by subst hs2; exact ⟨rfl, rfl⟩
  have htr : s2.trace = s1.trace := by subst hs2; rfl
  have hr : s2.txs.response = s.txs.response := by rw [hx]; exact k1.response
  obtain ⟨s3, h3, k3⟩ := responseBodyData_step hcb none (s := s2) (t := t1)
    (by rw [hr, hx]; exact k1.here) henc1
  have hstate : handleResponseState e s = (.ok (), s3) := by
    rw [handleResponseState_bodyIdentityClKnown h.state]
    unfold responseBodyIdentityClKnown
    rw [M.bind_state, if_neg (by rcases h.status with h | h <;> rw [h] <;> decide)]
    unfold responseIdentityOpen
    rw [M.bind_state, h.left]
    dsimp only
    rw [Nat.min_eq_right hn, if_neg hn0, M.bind_ok h1]
    unfold responseConsume
    rw [M.bind_modify]
    unfold setResp
    rw [M.bind_modify, if_neg (by omega), M.bind_modify]
    show responseBodyData e none _ = _
    rw [← h3, ← hs2]
  refine ⟨_, responseStep_ok (by rw [h.state]; simp [responseGapState]) hstate ?_
    (responseHandleStateChange_ok ?_), ?_, ?_, ?_, ?_, ?_⟩
  · rw [k3.resp, hst.2, k1.resp]
    rcases h.status with h | h <;> rw [h] <;> decide
  · rw [k3.resp, hst.1]
    decide
  · show s3.resp.state = _
    rw [k3.resp, hst.1]
  · show s3.input = _
    rw [k3.input, hi, k1.input]
  · show s3.txs.response = _
    rw [k3.response, hr]
  · show s3.resp.status = _
    rw [k3.resp, hst.2, k1.resp]
  · show delivered _ _ s3.trace = _
    rw [k3.trace, htr, k1.trace, delivered_append, delivered_append, hd, hr, delivered_responseBodyEvents]
    simp [handedOut, PData.asSlice]

/-- A chunk arrives inside a response body. -/
theorem response_arrives {e : Env} {s : Conn} {t : Tx} (hstat : s.resp.status = .open ∨ s.resp.status = .data)
    (ht : s.txs.get s.txs.response = some t) (hp : t.responseProgress = .body) (c : Chunk) (hc : chunkLength c ≠ 0) :
    ∃ N s1 t1, (Op.response c).run e s = responseLoop e (N + 1) s1 ∧ responseLoopStart e c s = s1 ∧
      s1.resp = { s.resp with bytesConsumed := 0 } ∧ s1.txs.get s1.txs.response = some t1 ∧
      (t1 = t ∨ t1 = t.setFlags Flag.RESPONSE_MISSING_BYTES) ∧
      s1.input = c.toPData ∧ s1.trace = s.trace ∧ s1.txs.response = s.txs.response := by
  have hst : s.resp.status ≠ .stop ∧ s.resp.status ≠ .error ∧ s.resp.status ≠ .tunnel := by
    rcases hstat with h | h <;> rw [h] <;> decide
  cases c with
  | data b =>
    have hb : b ≠ [] := by rintro rfl; exact hc rfl
    exact ⟨_, responseFed b s, t, responseData_data hb hst.1 hst.2.1 hst.2.2, rfl, rfl, ht, .inl rfl, rfl, rfl, rfl⟩
  | gap g =>
    have hg : g ≠ 0 := hc
    have hl : (Chunk.gap g).toPData.len = g := toPData_len (.gap g)
    generalize hs1 : ({ responseOffered (.gap g) s with
      responseDataCounter := wrapAdd s.responseDataCounter (chunkLength (.gap g)) } : Conn) = s1
    have hreq : s1.resp = { s.resp with bytesConsumed := 0 } := by subst hs1; rfl
    have htxs : s1.txs = s.txs := by subst hs1; rfl
    have htr : s1.trace = s.trace := by subst hs1; rfl
    have hin : s1.input = (Chunk.gap g).toPData := by subst hs1; rfl
    have hnote : responseNoteGap e s1 = (.ok none,
        { s1 with txs := s1.txs.set s1.txs.response (t.setFlags Flag.RESPONSE_MISSING_BYTES) }) := by
      rw [responseNoteGap_eq]
      unfold Txs.responseMut Txs.entry
      rw [htxs, ht]
      dsimp only
      rw [if_neg (by rw [hp]; simp)]
    have hstart : responseLoopStart e (.gap g) s =
        { s1 with txs := s1.txs.set s1.txs.response (t.setFlags Flag.RESPONSE_MISSING_BYTES) } := by
      unfold responseLoopStart responseEarly
      rw [hs1, M.bind_state, if_pos (by rw [hin]; rfl), hnote]
    have hrun : (Op.response (.gap g)).run e s = responseLoop e (responseRounds s1)
        { s1 with txs := s1.txs.set s1.txs.response (t.setFlags Flag.RESPONSE_MISSING_BYTES) } := by
      show responseData e (Chunk.gap g).toPData s = _
      rw [responseData_eq, if_neg hst.1, if_neg hst.2.1,
        if_neg (by rw [PData.isEmpty, hl]; simp [hg]), if_neg hst.2.2, hl]
      subst hs1
      exact responseProcess_gap_none (by rfl) hnote
    refine ⟨responseRounds s1 - 1, _, t.setFlags Flag.RESPONSE_MISSING_BYTES, ?_, hstart, hreq, ?_, .inr rfl, hin,
      htr, ?_⟩
    · rw [hrun]
      have : responseRounds s1 = responseRounds s1 - 1 + 1 := by unfold responseRounds; omega
      rw [← this]
    · exact (Txs.lookup_put _ _ _ _).trans (if_pos rfl)
    · show s1.txs.response = _
      rw [htxs]

theorem response_enter {e : Env} {s : Conn} {n : Nat} (h : ReceivingResponse s n) (c : Chunk)
    (hc : chunkLength c ≠ 0) :
    ∃ N s1, (Op.response c).run e s = responseLoop e (N + 1) s1 ∧ responseLoopStart e c s = s1 ∧
      ReceivingResponse s1 n ∧ s1.input = c.toPData ∧ s1.trace = s.trace ∧ s1.txs.response = s.txs.response := by
  obtain ⟨t, ht, hp, henc⟩ := h.tx
  obtain ⟨N, s1, t1, hrun, hstart, hresp, ht1, hor, hin, htr, hrq⟩ := response_arrives (e := e) h.status ht hp c hc
  refine ⟨N, s1, hrun, hstart, ⟨?_, ?_, ?_, ?_, t1, ht1, ?_, ?_⟩, hin, htr, hrq⟩
  · rw [hresp]; exact h.state
  · rw [hresp]; exact h.left
  · rw [hresp]; exact h.status
  · rw [hresp]; exact h.receiver
  · rcases hor with rfl | rfl <;> exact hp
  · rcases hor with rfl | rfl <;> exact henc

/-- The round, and so the call, in which a piece of a body that ends with the stream arrives. -/
theorem responseStreamClose_round {e : Env} (hcb : CallbacksOK e) {s : Conn} (h : ReceivingUntilClose s)
    (h0 : s.input.len ≠ 0) (hpos : s.input.gapLen = none → s.input.asSlice ≠ []) :
    ∃ s', responseStep e s = (.ok (some .data), s') ∧ ReceivingUntilClose s' ∧
      s'.txs.response = s.txs.response ∧
      delivered .responseBodyData s.txs.response s'.trace =
        delivered .responseBodyData s.txs.response s.trace ++ handedOut s.input := by
  obtain ⟨t, ht, hp, henc⟩ := h.tx
  have hgs : (s.input.isGap && !responseGapState s.resp.state) = false := by rw [h.state]; simp [responseGapState]
  have hnc : s.resp.status ≠ .closed := by rcases h.status with h | h <;> rw [h] <;> decide
  have hdata : ∃ s1 t1 evs inp bc, responseStreamData e s = (.ok (), { s1 with
        input := inp, resp := { s1.resp with bytesConsumed := bc } }) ∧
      TxStep s.txs.response t1 evs s s1 ∧ t1.responseProgress = .body ∧
      t1.responseContentEncodingProcessing = .none ∧
      delivered .responseBodyData s.txs.response evs = handedOut s.input := by
    unfold responseStreamData
    rw [M.bind_state]
    cases hg : s.input.gapLen with
    | some g =>
      rw [if_pos (by simp [PData.isGap, hg]), M.bind_ok (responseTx_some ht)]
      obtain ⟨s1, h1, k1⟩ := responseRunHookBodyData_step hcb s.input ht
      exact ⟨s1, t, _, s1.input, s1.resp.bytesConsumed, h1, k1, hp, henc, delivered_responseBodyEvents _ _⟩
    | none =>
      rw [if_neg (by simp [PData.isGap, hg]), if_neg (by simp [PData.isEmpty, h0])]
      have hun : s.input.unconsumed = some s.input.asSlice := by
        have := hpos hg
        unfold PData.unconsumed
        unfold PData.asSlice at this ⊢
        cases hd : s.input.data with
        | none => rw [hd] at this; exact absurd rfl this
        | some b =>
          rw [hd] at this
          dsimp only at this ⊢
          have hle : s.input.position ≤ b.length := Decidable.byContradiction fun hlt => this (if_neg hlt)
          rw [if_pos hle, if_pos hle]
      obtain ⟨s1, h1, k1⟩ := responseBodyData_step hcb s.input.unconsumed ht henc
      rw [M.bind_ok h1]
      refine ⟨s1, _, _, s1.input.consume s.input.len, (s1.input.consume s.input.len).position, rfl, k1, hp, henc, ?_⟩
      rw [delivered_responseBodyEvents, hun]
      simp [handedOut, hg, PData.asSlice]
  obtain ⟨s1, t1, evs, inp, bc, hd, k1, hp1, henc1, hdel⟩ := hdata
  have hstate : handleResponseState e s = (.error (.status .data), { s1 with
      input := inp, resp := { s1.resp with bytesConsumed := bc } }) := by
    rw [handleResponseState_bodyIdentityStreamClose h.state]
    unfold responseBodyIdentityStreamClose
    rw [M.bind_ok hd, M.bind_state, if_neg (by show s1.resp.status ≠ _; rw [k1.resp]; exact hnc)]
    rfl
  refine ⟨_, responseStep_data (t := t1) hgs (.inl hstate) ?_ ?_, ⟨?_, .inr rfl, ?_, t1, ?_, hp1, henc1⟩, k1.response,
    ?_⟩
  · show s1.resp.receiver = none
    rw [k1.resp]; exact h.receiver
  · show s1.txs.get s1.txs.response = _
    rw [k1.response]; exact k1.here
  · show s1.resp.state = _
    rw [k1.resp]; exact h.state
  · show s1.resp.receiver = none
    rw [k1.resp]; exact h.receiver
  · show s1.txs.get s1.txs.response = _
    rw [k1.response]; exact k1.here
  · show delivered _ _ s1.trace = _
    rw [k1.trace, delivered_append, hdel]

theorem responseStreamClose_call {e : Env} (hcb : CallbacksOK e) {s : Conn} (h : ReceivingUntilClose s) (c : Chunk)
    (hc : chunkLength c ≠ 0) :
    ∃ s', (Op.response c).run e s = (.ok (some .data), s') ∧ ReceivingUntilClose s' ∧
      s'.txs.response = s.txs.response ∧
      delivered .responseBodyData s.txs.response s'.trace =
        delivered .responseBodyData s.txs.response s.trace ++ content c := by
  obtain ⟨t, ht, hp, henc⟩ := h.tx
  obtain ⟨N, s1, t1, hrun, -, hresp, ht1, hor, hin, htr, hrq⟩ := response_arrives (e := e) h.status ht hp c hc
  have h1 : ReceivingUntilClose s1 := by
    refine ⟨?_, ?_, ?_, t1, ht1, ?_, ?_⟩
    · rw [hresp]; exact h.state
    · rw [hresp]; exact h.status
    · rw [hresp]; exact h.receiver
    · rcases hor with rfl | rfl <;> exact hp
    · rcases hor with rfl | rfl <;> exact henc
  obtain ⟨s', hs, h2, hrq2, hd⟩ := responseStreamClose_round hcb h1
    (by rw [hin]; rw [toPData_len]; exact hc) (by
      rw [hin]
      cases c with
      | gap g => intro hg; cases hg
      | data b =>
        intro _ hb
        have : b = [] := hb
        exact hc (by rw [this]; rfl))
  refine ⟨s', by rw [hrun]; exact responseLoop_some (by omega) hs, h2, hrq2.trans hrq, ?_⟩
  rw [hrq] at hd
  rw [hd, htr, hin, handedOut_toPData]

/-- The framing of a request body is decided. -/
theorem requestBodyDetermine_identity {e : Env} {s : Conn} {t : Tx} {n : Nat}
    (hs : s.req.state = .bodyDetermine) (hg : s.input.isGap = false)
    (hst : s.req.status = .open ∨ s.req.status = .data)
    (ht : s.txs.get s.txs.request = some t) (hcod : t.requestTransferCoding = .identity)
    (hn : t.requestContentLength = some n) (hn0 : n ≠ 0) :
    ∃ s', requestStep e s = (.ok none, s') ∧ s'.req.state = .bodyIdentity ∧ s'.req.bodyDataLeft = some n ∧
      s'.req.status = s.req.status ∧ s'.req.receiver = s.req.receiver ∧ s'.input = s.input ∧ s'.trace = s.trace ∧
      s'.txs.request = s.txs.request ∧ s'.txs.get s'.txs.request = some { t with requestProgress := .body } := by
  obtain ⟨s1, h1, k1⟩ := putRequest_step { t with requestProgress := .body } s
  have hstate : handleRequestState e s = (.ok (), { s1 with req := { s1.req with
      contentLength := t.requestContentLength, bodyDataLeft := t.requestContentLength, state := .bodyIdentity } }) := by
    rw [handleRequestState_bodyDetermine hs]
    unfold requestBodyDetermine
    rw [M.bind_ok (requestTx_some ht), hcod]
    dsimp only
    rw [hcod] at h1
    rw [if_pos (by rw [hn]; show n > 0; omega), M.bind_ok h1]
    rfl
  refine ⟨_, requestStep_ok (by rw [hg]; rfl) hstate ?_ (requestHandleStateChange_ok ?_), rfl, hn, ?_, ?_, ?_, ?_, ?_, ?_⟩
  · show s1.req.status ≠ _
    rw [k1.req]
    rcases hst with h | h <;> rw [h] <;> decide
  · show State.bodyIdentity ≠ _
    decide
  · show s1.req.status = _
    rw [k1.req]
  · show s1.req.receiver = _
    rw [k1.req]
  · exact k1.input
  · show s1.trace = _
    rw [k1.trace]; simp
  · exact k1.request
  · show s1.txs.get s1.txs.request = _
    rw [k1.request]; exact k1.here

end Model

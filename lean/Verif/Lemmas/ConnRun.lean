/-
Rules to compute what a call does.
-/
import Verif.Lemmas.ConnOps
import Verif.Lemmas.Txs

namespace Model

open M Spec

theorem M.bind_state {β : Type} {f : Conn → M β} {s : Conn} : (M.state >>= f) s = f s s := rfl

theorem M.bind_modify {β : Type} {f : Conn → Conn} {g : Unit → M β} {s : Conn} :
    (M.modify f >>= g) s = g () (f s) := rfl

theorem M.attempt_ok {α : Type} {m : M α} {s s' : Conn} {a : α} (h : m s = (.ok a, s')) :
    M.attempt m s = (.ok (.ok a), s') := by
  unfold M.attempt
  rw [h]

theorem M.attempt_error {α : Type} {m : M α} {s s' : Conn} {x : Status}
    (h : m s = (.error (.status x), s')) : M.attempt m s = (.ok (.error x), s') := by
  unfold M.attempt
  rw [h]

/-! The handler of each state. -/

theorem handleRequestState_idle {e : Env} {s : Conn} (h : s.req.state = .idle) :
    handleRequestState e s = requestIdle e s := by
  unfold handleRequestState
  rw [M.bind_state, h]

theorem handleRequestState_ignoreDataAfterHttp09 {e : Env} {s : Conn} (h : s.req.state = .ignoreDataAfterHttp09) :
    handleRequestState e s = requestIgnoreDataAfterHttp09 s := by
  unfold handleRequestState
  rw [M.bind_state, h]

theorem handleRequestState_line {e : Env} {s : Conn} (h : s.req.state = .line) :
    handleRequestState e s = requestLine e s := by
  unfold handleRequestState
  rw [M.bind_state, h]

theorem handleRequestState_protocol {e : Env} {s : Conn} (h : s.req.state = .protocol) :
    handleRequestState e s = requestProtocol e s := by
  unfold handleRequestState
  rw [M.bind_state, h]

theorem handleRequestState_headers {e : Env} {s : Conn} (h : s.req.state = .headers) :
    handleRequestState e s = requestHeaders e s := by
  unfold handleRequestState
  rw [M.bind_state, h]

theorem handleRequestState_bodyDetermine {e : Env} {s : Conn} (h : s.req.state = .bodyDetermine) :
    handleRequestState e s = requestBodyDetermine e s := by
  unfold handleRequestState
  rw [M.bind_state, h]

theorem handleRequestState_bodyChunkedData {e : Env} {s : Conn} (h : s.req.state = .bodyChunkedData) :
    handleRequestState e s = requestBodyChunkedData e s := by
  unfold handleRequestState
  rw [M.bind_state, h]

theorem handleRequestState_bodyChunkedLength {e : Env} {s : Conn} (h : s.req.state = .bodyChunkedLength) :
    handleRequestState e s = requestBodyChunkedLength e s := by
  unfold handleRequestState
  rw [M.bind_state, h]

theorem handleRequestState_bodyChunkedDataEnd {e : Env} {s : Conn} (h : s.req.state = .bodyChunkedDataEnd) :
    handleRequestState e s = requestBodyChunkedDataEnd e s := by
  unfold handleRequestState
  rw [M.bind_state, h]

theorem handleRequestState_bodyIdentity {e : Env} {s : Conn} (h : s.req.state = .bodyIdentity) :
    handleRequestState e s = requestBodyIdentity e s := by
  unfold handleRequestState
  rw [M.bind_state, h]

theorem handleRequestState_finalize {e : Env} {s : Conn} (h : s.req.state = .finalize) :
    handleRequestState e s = requestFinalize e s := by
  unfold handleRequestState
  rw [M.bind_state, h]

theorem handleRequestState_connectCheck {e : Env} {s : Conn} (h : s.req.state = .connectCheck) :
    handleRequestState e s = requestConnectCheck e s := by
  unfold handleRequestState
  rw [M.bind_state, h]

theorem handleResponseState_idle {e : Env} {s : Conn} (h : s.resp.state = .idle) :
    handleResponseState e s = responseIdle e s := by
  unfold handleResponseState
  rw [M.bind_state, h]

theorem handleResponseState_line {e : Env} {s : Conn} (h : s.resp.state = .line) :
    handleResponseState e s = responseLine e s := by
  unfold handleResponseState
  rw [M.bind_state, h]

theorem handleResponseState_headers {e : Env} {s : Conn} (h : s.resp.state = .headers) :
    handleResponseState e s = responseHeaders e s := by
  unfold handleResponseState
  rw [M.bind_state, h]

theorem handleResponseState_bodyDetermine {e : Env} {s : Conn} (h : s.resp.state = .bodyDetermine) :
    handleResponseState e s = responseBodyDetermine e s := by
  unfold handleResponseState
  rw [M.bind_state, h]

theorem handleResponseState_bodyChunkedData {e : Env} {s : Conn} (h : s.resp.state = .bodyChunkedData) :
    handleResponseState e s = responseBodyChunkedData e s := by
  unfold handleResponseState
  rw [M.bind_state, h]

theorem handleResponseState_bodyChunkedLength {e : Env} {s : Conn} (h : s.resp.state = .bodyChunkedLength) :
    handleResponseState e s = responseBodyChunkedLength e s := by
  unfold handleResponseState
  rw [M.bind_state, h]

theorem handleResponseState_bodyChunkedDataEnd {e : Env} {s : Conn} (h : s.resp.state = .bodyChunkedDataEnd) :
    handleResponseState e s = responseBodyChunkedDataEnd e s := by
  unfold handleResponseState
  rw [M.bind_state, h]

theorem handleResponseState_finalize {e : Env} {s : Conn} (h : s.resp.state = .finalize) :
    handleResponseState e s = responseFinalize e s := by
  unfold handleResponseState
  rw [M.bind_state, h]

theorem handleResponseState_bodyIdentityStreamClose {e : Env} {s : Conn} (h : s.resp.state = .bodyIdentityStreamClose) :
    handleResponseState e s = responseBodyIdentityStreamClose e s := by
  unfold handleResponseState
  rw [M.bind_state, h]

theorem handleResponseState_bodyIdentityClKnown {e : Env} {s : Conn} (h : s.resp.state = .bodyIdentityClKnown) :
    handleResponseState e s = responseBodyIdentityClKnown e s := by
  unfold handleResponseState
  rw [M.bind_state, h]

/-! The request loop. -/

theorem requestStep_rc {e : Env} {s s1 : Conn} {rc : Except Status Unit}
    (hg : (s.input.isGap && !requestGapState s.req.state) = false)
    (h : M.attempt (handleRequestState e) s = (.ok rc, s1)) :
    requestStep e s = requestStepTail e rc s1 := by
  unfold requestStep
  rw [M.bind_state]
  show (if _ then _ else _ : M (Option StreamState)) s = _
  rw [if_neg (by rw [hg]; decide)]
  exact M.bind_ok h

/-- A round that goes on. -/
theorem requestStep_ok {e : Env} {s s1 s2 : Conn}
    (hg : (s.input.isGap && !requestGapState s.req.state) = false)
    (h : handleRequestState e s = (.ok (), s1)) (ht : s1.req.status ≠ .tunnel)
    (hc : requestHandleStateChange e s1 = (.ok (), s2)) : requestStep e s = (.ok none, s2) := by
  rw [requestStep_rc hg (M.attempt_ok h)]
  unfold requestStepTail
  rw [M.bind_state]
  dsimp only
  rw [if_neg ht, M.bind_ok (M.attempt_ok hc)]
  rfl

/-- A round that ends with an error. -/
theorem requestStep_error {e : Env} {s s1 : Conn}
    (hg : (s.input.isGap && !requestGapState s.req.state) = false)
    (h : handleRequestState e s = (.error (.status .error), s1)) :
    requestStep e s = (.ok (some .error), { s1 with req := { s1.req with status := .error } }) := by
  rw [requestStep_rc hg (M.attempt_error h)]
  rfl

theorem requestTx_some {e : Env} {s : Conn} {t : Tx} {x : Err} (h : s.txs.get s.txs.request = some t) :
    requestTx e x s = (.ok t, s) := by
  unfold requestTx Txs.requestMut Txs.entry
  rw [h]

theorem responseTx_some {e : Env} {s : Conn} {t : Tx} {x : Err} (h : s.txs.get s.txs.response = some t) :
    responseTx e x s = (.ok t, s) := by
  unfold responseTx Txs.responseMut Txs.entry
  rw [h]

/-- A round that waits for more data while no raw data is collected. -/
theorem requestStep_data {e : Env} {s s1 : Conn} {t : Tx}
    (hg : (s.input.isGap && !requestGapState s.req.state) = false)
    (h : handleRequestState e s = (.error (.status .data), s1) ∨
      handleRequestState e s = (.error (.status .dataBuffer), s1))
    (hr : s1.req.receiver = none) (ht : s1.txs.get s1.txs.request = some t) :
    requestStep e s = (.ok (some .data),
      { s1 with req := { s1.req with status := .data }, input := s1.input.callbackData.2 }) := by
  have hsend : requestReceiverSendData e s1 = (.ok (), { s1 with input := s1.input.callbackData.2 }) := by
    unfold requestReceiverSendData
    rw [M.bind_state, M.bind_modify, M.bind_ok (requestTx_some (t := t) (by exact ht)), hr]
    rfl
  rcases h with h | h <;>
    (rw [requestStep_rc hg (M.attempt_error h)]
     unfold requestStepTail
     rw [M.bind_state]
     dsimp only
     unfold requestAfterStep
     dsimp only
     rw [M.bind_ok (M.attempt_ok hsend)]
     rfl)

theorem requestLoop_some {e : Env} {s s' : Conn} {st : StreamState} {n : Nat} (hn : n ≠ 0)
    (h : requestStep e s = (.ok (some st), s')) : requestLoop e n s = (.ok (some st), s') := by
  cases n with
  | zero => exact absurd rfl hn
  | succ n =>
    rw [requestLoop.eq_2, M.bind_ok h]
    rfl

theorem requestLoop_none {e : Env} {s s' : Conn} {n : Nat}
    (h : requestStep e s = (.ok none, s')) : requestLoop e (n + 1) s = requestLoop e n s' := by
  rw [requestLoop.eq_2, M.bind_ok h]

/-- The loop, on data. -/
theorem requestProcess_data {e : Env} {s : Conn} (hg : s.input.isGap = false) :
    requestProcess e s = requestLoop e (requestRounds s)
      { s with resp := if s.resp.status = .dataOther then { s.resp with status := .data } else s.resp } := by
  unfold requestProcess
  rw [M.bind_modify, M.bind_state, M.bind_ok (a := none)
      (s' := { s with resp := if s.resp.status = .dataOther then { s.resp with status := .data }
        else s.resp })]
  · rfl
  · unfold requestEarly
    rw [M.bind_state]
    show (if s.input.isGap = true then _ else _ : M (Option StreamState)) _ = _
    rw [if_neg (by rw [hg]; decide)]
    rfl

/-- The state in which the loop starts when data is fed. -/
def requestFed (b : Bytes) (s : Conn) : Conn :=
  { s with
    req := { s.req with bytesConsumed := 0 }
    input := .ofBytes b
    requestChunkCount := s.requestChunkCount + 1
    requestDataCounter := wrapAdd s.requestDataCounter b.length
    resp := if s.resp.status = .dataOther then { s.resp with status := .data } else s.resp }

theorem requestData_data {e : Env} {s : Conn} {b : Bytes} (hb : b ≠ [])
    (h1 : s.req.status ≠ .stop) (h2 : s.req.status ≠ .error) (h3 : s.req.status ≠ .tunnel) :
    requestData e (.ofBytes b) s =
      requestLoop e (16 * (b.length + 2 * s.req.buf.length + 2)) (requestFed b s) := by
  have hlen : (PData.ofBytes b).len = b.length := toPData_len (.data b)
  have hne : (PData.ofBytes b).isEmpty = false := by
    have : b.length ≠ 0 := by simpa using hb
    simp [PData.isEmpty, hlen, this]
  rw [requestData_eq, if_neg h1, if_neg h2, if_neg (by rw [hne]; simp), if_neg h3,
    requestProcess_data (by rfl)]
  simp only [requestRounds, requestFed, hlen]

/-! The response loop. -/

theorem responseStep_rc {e : Env} {s s1 : Conn} {rc : Except Status Unit}
    (hg : (s.input.isGap && !responseGapState s.resp.state) = false)
    (h : M.attempt (handleResponseState e) s = (.ok rc, s1)) :
    responseStep e s = responseStepTail e rc s1 := by
  unfold responseStep
  rw [M.bind_state]
  show (if _ then _ else _ : M (Option StreamState)) s = _
  rw [if_neg (by rw [hg]; decide)]
  exact M.bind_ok h

theorem responseStep_ok {e : Env} {s s1 s2 : Conn}
    (hg : (s.input.isGap && !responseGapState s.resp.state) = false)
    (h : handleResponseState e s = (.ok (), s1)) (ht : s1.resp.status ≠ .tunnel)
    (hc : responseHandleStateChange e s1 = (.ok (), s2)) : responseStep e s = (.ok none, s2) := by
  rw [responseStep_rc hg (M.attempt_ok h)]
  unfold responseStepTail
  rw [M.bind_state]
  dsimp only
  rw [if_neg ht, M.bind_ok (M.attempt_ok hc)]
  rfl

theorem responseStep_error {e : Env} {s s1 : Conn}
    (hg : (s.input.isGap && !responseGapState s.resp.state) = false)
    (h : handleResponseState e s = (.error (.status .error), s1)) :
    responseStep e s = (.ok (some .error), { s1 with resp := { s1.resp with status := .error } }) := by
  rw [responseStep_rc hg (M.attempt_error h)]
  rfl

theorem responseStep_data {e : Env} {s s1 : Conn} {t : Tx}
    (hg : (s.input.isGap && !responseGapState s.resp.state) = false)
    (h : handleResponseState e s = (.error (.status .data), s1) ∨
      handleResponseState e s = (.error (.status .dataBuffer), s1))
    (hr : s1.resp.receiver = none) (ht : s1.txs.get s1.txs.response = some t) :
    responseStep e s = (.ok (some .data),
      { s1 with resp := { s1.resp with status := .data }, input := s1.input.callbackData.2 }) := by
  have hsend : responseReceiverSendData e s1 = (.ok (), { s1 with input := s1.input.callbackData.2 }) := by
    unfold responseReceiverSendData
    rw [M.bind_state, M.bind_modify, M.bind_ok (responseTx_some (t := t) (by exact ht)), hr]
    rfl
  rcases h with h | h <;>
    (rw [responseStep_rc hg (M.attempt_error h)]
     unfold responseStepTail
     rw [M.bind_state]
     dsimp only
     unfold responseAfterStep
     dsimp only
     rw [M.bind_ok (M.attempt_ok hsend)]
     rfl)

theorem responseLoop_some {e : Env} {s s' : Conn} {st : StreamState} {n : Nat} (hn : n ≠ 0)
    (h : responseStep e s = (.ok (some st), s')) : responseLoop e n s = (.ok (some st), s') := by
  cases n with
  | zero => exact absurd rfl hn
  | succ n =>
    rw [responseLoop.eq_2, M.bind_ok h]
    rfl

theorem responseLoop_none {e : Env} {s s' : Conn} {n : Nat}
    (h : responseStep e s = (.ok none, s')) : responseLoop e (n + 1) s = responseLoop e n s' := by
  rw [responseLoop.eq_2, M.bind_ok h]

/-- The state in which the loop starts when data is fed. -/
def responseFed (b : Bytes) (s : Conn) : Conn :=
  { s with
    resp := { s.resp with bytesConsumed := 0 }
    input := .ofBytes b
    responseDataCounter := wrapAdd s.responseDataCounter b.length }

theorem responseData_data {e : Env} {s : Conn} {b : Bytes} (hb : b ≠ [])
    (h1 : s.resp.status ≠ .stop) (h2 : s.resp.status ≠ .error) (h3 : s.resp.status ≠ .tunnel) :
    responseData e (.ofBytes b) s =
      responseLoop e (16 * (b.length + 2 * s.resp.buf.length + 2)) (responseFed b s) := by
  have hlen : (PData.ofBytes b).len = b.length := toPData_len (.data b)
  have hne : (PData.ofBytes b).isEmpty = false := by
    have : b.length ≠ 0 := by simpa using hb
    simp [PData.isEmpty, hlen, this]
  rw [responseData_eq, if_neg h1, if_neg h2, if_neg (by rw [hne]; simp), if_neg h3]
  unfold responseProcess
  rw [M.bind_state, M.bind_ok (a := none) (s' := responseFed b s)]
  · simp only [responseRounds, hlen]
  · unfold responseEarly
    rw [M.bind_state]
    show (if (PData.ofBytes b).isGap = true then _ else _ : M (Option StreamState)) _ = _
    rw [if_neg (by simp [PData.isGap, PData.ofBytes]), hlen]
    rfl

/-! Gaps. -/

theorem requestNoteGap_eq (e : Env) (s : Conn) :
    requestNoteGap e s = match s.txs.requestMut e.cfg.maxTx with
      | (none, txs) => (.ok (some .error), { s with txs })
      | (some t, txs) =>
        if txs.request = 0 ∧ t.requestProgress = .notStarted then (.ok (some .error),
          { s with
            txs := txs.set txs.request { t.setFlags Flag.REQUEST_MISSING_BYTES with requestProgress := .gap }
            req := { s.req with status := .error } })
        else (.ok none, { s with txs := txs.set txs.request (t.setFlags Flag.REQUEST_MISSING_BYTES) }) := by
  unfold requestNoteGap
  split
  next txs h =>
    have h1 : requestTx e (.status .error) s = (.error (.status .error), { s with txs }) := by
      unfold requestTx; rw [h]
    rw [M.bind_ok (M.attempt_error h1)]
    rfl
  next t txs h =>
    have h1 : requestTx e (.status .error) s = (.ok t, { s with txs }) := by unfold requestTx; rw [h]
    rw [M.bind_ok (M.attempt_ok h1)]
    dsimp only
    rw [M.bind_state]
    split <;> rfl

theorem responseNoteGap_eq (e : Env) (s : Conn) :
    responseNoteGap e s = match s.txs.responseMut e.cfg.maxTx with
      | (none, txs) => (.ok (some .error), { s with txs })
      | (some t, txs) =>
        if txs.request = 0 ∧ t.responseProgress = .notStarted then (.ok (some .error),
          { s with
            txs := txs.set txs.response { t.setFlags Flag.RESPONSE_MISSING_BYTES with responseProgress := .gap }
            resp := { s.resp with status := .error } })
        else (.ok none, { s with txs := txs.set txs.response (t.setFlags Flag.RESPONSE_MISSING_BYTES) }) := by
  unfold responseNoteGap
  split
  next txs h =>
    have h1 : responseTx e (.status .error) s = (.error (.status .error), { s with txs }) := by
      unfold responseTx; rw [h]
    rw [M.bind_ok (M.attempt_error h1)]
    rfl
  next t txs h =>
    have h1 : responseTx e (.status .error) s = (.ok t, { s with txs }) := by unfold responseTx; rw [h]
    rw [M.bind_ok (M.attempt_ok h1)]
    dsimp only
    rw [M.bind_state]
    split <;> rfl

/-- What noting a gap in the request stream does. -/
structure GapNoted (k : Nat) (s s' : Conn) : Prop where
  trace : s'.trace = s.trace
  request : s'.txs.request = s.txs.request
  response : s'.txs.response = s.txs.response
  others : ∀ j, j ≠ k → s'.txs.get j = s.txs.get j
  input : s'.input = s.input

theorem entry_other (maxTx : Nat) (t : Txs) (k j : Nat) (h : j ≠ k) : (t.entry maxTx k).2.get j = t.get j := by
  unfold Txs.entry
  split
  · rfl
  · split
    · rfl
    · exact (Txs.lookup_put k j _ _).trans (if_neg h)

theorem set_other (t : Txs) (k j : Nat) (x : Tx) (h : j ≠ k) : (t.set k x).get j = t.get j :=
  (Txs.lookup_put k j _ _).trans (if_neg h)

theorem requestNoteGap_noted (e : Env) (s : Conn) :
    GapNoted s.txs.request s (requestNoteGap e s).2 ∧ (requestNoteGap e s).2.resp = s.resp ∧
      (∃ st, (requestNoteGap e s).2.req = { s.req with status := st }) ∧
      ((requestNoteGap e s).1 = .ok none ∨ (requestNoteGap e s).1 = .ok (some .error)) := by
  have hidx := entry_eq e.cfg.maxTx s.txs s.txs.request
  have hoth := entry_other e.cfg.maxTx s.txs s.txs.request
  rw [requestNoteGap_eq]
  unfold Txs.requestMut
  generalize hr : s.txs.entry e.cfg.maxTx s.txs.request = r at hidx hoth
  obtain ⟨o, txs⟩ := r
  obtain ⟨m, hm⟩ := hidx
  dsimp only at hm hoth
  subst hm
  cases o with
  | none => exact ⟨⟨rfl, rfl, rfl, hoth, rfl⟩, rfl, ⟨_, rfl⟩, .inr rfl⟩
  | some t =>
    dsimp only
    split
    · exact ⟨⟨rfl, rfl, rfl, fun j hj => (set_other _ _ j _ hj).trans (hoth j hj), rfl⟩, rfl,
        ⟨_, rfl⟩, .inr rfl⟩
    · exact ⟨⟨rfl, rfl, rfl, fun j hj => (set_other _ _ j _ hj).trans (hoth j hj), rfl⟩, rfl,
        ⟨s.req.status, rfl⟩, .inl rfl⟩

theorem responseNoteGap_noted (e : Env) (s : Conn) :
    GapNoted s.txs.response s (responseNoteGap e s).2 ∧ (responseNoteGap e s).2.req = s.req ∧
      (∃ st, (responseNoteGap e s).2.resp = { s.resp with status := st }) ∧
      ((responseNoteGap e s).1 = .ok none ∨ (responseNoteGap e s).1 = .ok (some .error)) := by
  have hidx := entry_eq e.cfg.maxTx s.txs s.txs.response
  have hoth := entry_other e.cfg.maxTx s.txs s.txs.response
  rw [responseNoteGap_eq]
  unfold Txs.responseMut
  generalize hr : s.txs.entry e.cfg.maxTx s.txs.response = r at hidx hoth
  obtain ⟨o, txs⟩ := r
  obtain ⟨m, hm⟩ := hidx
  dsimp only at hm hoth
  subst hm
  cases o with
  | none => exact ⟨⟨rfl, rfl, rfl, hoth, rfl⟩, rfl, ⟨_, rfl⟩, .inr rfl⟩
  | some t =>
    dsimp only
    split
    · exact ⟨⟨rfl, rfl, rfl, fun j hj => (set_other _ _ j _ hj).trans (hoth j hj), rfl⟩, rfl,
        ⟨_, rfl⟩, .inr rfl⟩
    · exact ⟨⟨rfl, rfl, rfl, fun j hj => (set_other _ _ j _ hj).trans (hoth j hj), rfl⟩, rfl,
        ⟨s.resp.status, rfl⟩, .inl rfl⟩

theorem requestProcess_gap {e : Env} {s : Conn} (hg : s.input.isGap = true) :
    requestProcess e s =
      match requestNoteGap e
        { s with resp := if s.resp.status = .dataOther then { s.resp with status := .data } else s.resp } with
      | (.ok (some st), s') => (.ok (some st), s')
      | (.ok none, s') => requestLoop e (requestRounds s) s'
      | (.error x, s') => (.error x, s') := by
  unfold requestProcess
  rw [M.bind_modify, M.bind_state]
  have h1 : ∀ s' : Conn, s'.input.isGap = true → requestEarly e s' = requestNoteGap e s' := by
    intro s' h
    unfold requestEarly
    rw [M.bind_state, if_pos h]
  generalize hs1 : ({ s with resp := if s.resp.status = .dataOther then { s.resp with status := .data }
    else s.resp } : Conn) = s1
  have hr : requestRounds s1 = requestRounds s := by subst hs1; rfl
  have hg1 : s1.input.isGap = true := by subst hs1; exact hg
  rw [hr]
  split
  next st s' h => rw [M.bind_ok ((h1 _ hg1).trans h)]; rfl
  next s' h => rw [M.bind_ok ((h1 _ hg1).trans h)]
  next x s' h => exact M.bind_error ((h1 _ hg1).trans h)

theorem responseProcess_gap {e : Env} {s : Conn} (hg : s.input.isGap = true) :
    responseProcess e s =
      match responseNoteGap e s with
      | (.ok (some st), s') => (.ok (some st), s')
      | (.ok none, s') => responseLoop e (responseRounds s) s'
      | (.error x, s') => (.error x, s') := by
  unfold responseProcess
  rw [M.bind_state]
  have h1 : ∀ s' : Conn, s'.input.isGap = true → responseEarly e s' = responseNoteGap e s' := by
    intro s' h
    unfold responseEarly
    rw [M.bind_state, if_pos h]
  split
  next st s' h => rw [M.bind_ok ((h1 _ hg).trans h)]; rfl
  next s' h => rw [M.bind_ok ((h1 _ hg).trans h)]
  next x s' h => exact M.bind_error ((h1 _ hg).trans h)

theorem requestProcess_gap_none {e : Env} {s s' : Conn} (hg : s.input.isGap = true)
    (h : requestNoteGap e
      { s with resp := if s.resp.status = .dataOther then { s.resp with status := .data } else s.resp } =
      (.ok none, s')) : requestProcess e s = requestLoop e (requestRounds s) s' := by
  rw [requestProcess_gap hg, h]

theorem responseProcess_gap_none {e : Env} {s s' : Conn} (hg : s.input.isGap = true)
    (h : responseNoteGap e s = (.ok none, s')) :
    responseProcess e s = responseLoop e (responseRounds s) s' := by
  rw [responseProcess_gap hg, h]

end Model

/-
The transaction store of a connection parser: it stays sorted, and never holds more transactions than the
configuration allows, whatever the calls.
-/
import Verif.Lemmas.OrderOps

namespace Model

open M Spec

/-- The store is sorted by index and within its limit. -/
structure Bounded (n : Nat) (s : Conn) : Prop where
  sorted : Txs.Sorted s.txs.map
  bound : s.txs.map.length ≤ n

/-- The same, while `r` is the current transaction of one side; `b` says whether there is a transaction with
that index, or room for one. -/
structure Held (n : Nat) (sel : Txs → Nat) (b : Bool) (r : Nat) (s : Conn) : Prop where
  store : Bounded n s
  index : sel s.txs = r
  room : b = true ↔ ((s.txs.get r).isSome ∨ s.txs.map.length < n)

theorem Held.bounded {n : Nat} {sel : Txs → Nat} {b : Bool} {r : Nat} {s : Conn} (h : Held n sel b r s) :
    Bounded n s := h.1

/-- A change that leaves the store alone. -/
theorem Held.same {n : Nat} {sel : Txs → Nat} {b : Bool} {r : Nat} {s s' : Conn} (h : Held n sel b r s)
    (ht : s'.txs = s.txs) : Held n sel b r s' := by
  refine ⟨⟨?_, ?_⟩, ?_, ?_⟩ <;> rw [ht]
  · exact h.1.1
  · exact h.1.2
  · exact h.2
  · exact h.3

/-- A transaction is stored where there is room for it. -/
theorem Bounded.put {n k : Nat} {s : Conn} (h : Bounded n s)
    (hr : (s.txs.get k).isSome ∨ s.txs.map.length < n) (t : Tx) :
    Bounded n { s with txs := s.txs.set k t } := by
  refine ⟨Txs.sorted_put _ _ _ h.1, ?_⟩
  show (Txs.put k t s.txs.map).length ≤ n
  cases hg : Txs.lookup s.txs.map k with
  | some u =>
    rw [Txs.length_put_of_some _ _ _ h.1 (by rw [hg]; rfl)]
    exact h.2
  | none =>
    rw [Txs.length_put_of_none _ _ _ hg]
    rcases hr with hr | hr
    · have : (Txs.lookup s.txs.map k).isSome := hr
      rw [hg] at this
      cases this
    · exact hr

theorem Held.put {n : Nat} {sel : Txs → Nat} {b : Bool} {r : Nat} {s : Conn} (h : Held n sel b r s)
    (hsel : ∀ (t : Txs) k u, sel (t.set k u) = sel t) (hb : b = true) (t : Tx) :
    Held n sel b r { s with txs := s.txs.set (sel s.txs) t } := by
  refine ⟨h.1.put ?_ t, (hsel ..).trans h.2, ?_⟩
  · rw [h.2]; exact h.3.1 hb
  · refine ⟨fun _ => .inl ?_, fun _ => hb⟩
    show ((s.txs.set (sel s.txs) t).get r).isSome
    rw [h.2, Txs.get_set, if_pos rfl]
    rfl

theorem Held.requestTx {n : Nat} {e : Env} (hn : e.cfg.maxTx = n) {b : Bool} {r : Nat} {x : Err} :
    Keeps (Held n Txs.request b r) (fun _ => b = true) (Model.requestTx e x) := by
  intro s hs
  unfold Model.requestTx Txs.requestMut Txs.entry
  rw [hn]
  cases hg : s.txs.get s.txs.request with
  | some t =>
    refine ⟨hs, fun _ _ => hs.3.2 (.inl ?_)⟩
    rw [← hs.2, hg]
    rfl
  | none =>
    dsimp only
    by_cases hl : s.txs.map.length ≥ n
    · rw [if_pos hl]; exact ⟨hs, fun a h => by cases h⟩
    · rw [if_neg hl]
      have hb : b = true := hs.3.2 (.inr (by omega))
      exact ⟨hs.put (fun _ _ _ => rfl) hb _, fun _ _ => hb⟩

theorem Held.responseTx {n : Nat} {e : Env} (hn : e.cfg.maxTx = n) {b : Bool} {r : Nat} {x : Err} :
    Keeps (Held n Txs.response b r) (fun _ => b = true) (Model.responseTx e x) := by
  intro s hs
  unfold Model.responseTx Txs.responseMut Txs.entry
  rw [hn]
  cases hg : s.txs.get s.txs.response with
  | some t =>
    refine ⟨hs, fun _ _ => hs.3.2 (.inl ?_)⟩
    rw [← hs.2, hg]
    rfl
  | none =>
    dsimp only
    by_cases hl : s.txs.map.length ≥ n
    · rw [if_pos hl]; exact ⟨hs, fun a h => by cases h⟩
    · rw [if_neg hl]
      have hb : b = true := hs.3.2 (.inr (by omega))
      exact ⟨hs.put (fun _ _ _ => rfl) hb _, fun _ _ => hb⟩

section
variable {n : Nat} {e : Env} {b : Bool} {r : Nat}

theorem Held.putRequest {t : Tx} (hb : b = true) : Keeps (Held n Txs.request b r) Any (Model.putRequest t) :=
  Keeps.modify fun _ hs => hs.put (fun _ _ _ => rfl) hb t

theorem Held.putResponse {t : Tx} (hb : b = true) : Keeps (Held n Txs.response b r) Any (Model.putResponse t) :=
  Keeps.modify fun _ hs => hs.put (fun _ _ _ => rfl) hb t

theorem Held.modifyRequest (hn : e.cfg.maxTx = n) {f : Tx → Tx} :
    Keeps (Held n Txs.request b r) Any (Model.modifyRequest e f) :=
  Keeps.bind (Held.requestTx hn) fun _ h => Held.putRequest h

theorem Held.modifyResponse (hn : e.cfg.maxTx = n) {f : Tx → Tx} :
    Keeps (Held n Txs.response b r) Any (Model.modifyResponse e f) :=
  Keeps.bind (Held.responseTx hn) fun _ h => Held.putResponse h

theorem Held.onRequest {α : Type} (hn : e.cfg.maxTx = n) {f : Tx → Except Err α × Tx} :
    Keeps (Held n Txs.request b r) Any (Model.onRequest e f) :=
  Keeps.bind (Held.requestTx hn) fun _ h => Keeps.bind (Held.putRequest h) fun _ _ => Keeps.ofExcept

theorem Held.withRequest {α : Type} (hn : e.cfg.maxTx = n) {f : Tx → α × Tx} :
    Keeps (Held n Txs.request b r) Any (Model.withRequest e f) :=
  Keeps.bind (Held.requestTx hn) fun _ h => Keeps.bind (Held.putRequest h) fun _ _ => Keeps.pure

theorem Held.withResponse {α : Type} (hn : e.cfg.maxTx = n) {f : Tx → α × Tx} :
    Keeps (Held n Txs.response b r) Any (Model.withResponse e f) :=
  Keeps.bind (Held.responseTx hn) fun _ h => Keeps.bind (Held.putResponse h) fun _ _ => Keeps.pure

end

/-- Extensible: closes a goal for a function already dealt with. -/
syntax "store_known" : tactic

macro_rules | `(tactic| store_known) => `(tactic| assumption)

/-- Walks through the text of a function. -/
macro "store_walk" : tactic => `(tactic| repeat' (with_reducible first
  | store_known
  | exact Keeps.pure
  | exact Keeps.raise
  | exact Keeps.fail
  | exact Keeps.ofExcept
  | exact Keeps.inputPrefix
  | exact Keeps.checkRequestBufferLimit
  | exact Keeps.checkResponseBufferLimit
  | refine Keeps.bind_state ?_
  | refine Keeps.bind (Held.requestTx (by assumption)) ?_
  | refine Keeps.bind (Held.responseTx (by assumption)) ?_
  | refine Keeps.bind (F := Any) ?_ ?_
  | refine Keeps.ite ?_ ?_
  | refine Keeps.when ?_
  | refine Keeps.attempt (F := Any) ?_
  | refine Keeps.runDecoding ?_ _
  | exact Held.putRequest (by assumption)
  | exact Held.putResponse (by assumption)
  | exact Held.modifyRequest (by assumption)
  | exact Held.modifyResponse (by assumption)
  | exact Held.onRequest (by assumption)
  | exact Held.withRequest (by assumption)
  | exact Held.withResponse (by assumption)
  | exact Keeps.emit fun _ h => Held.same h rfl
  | exact Keeps.runTxHook fun _ h => Held.same h rfl
  | exact Keeps.modify fun _ h => Held.same h rfl
  | exact Keeps.setReq fun _ h => Held.same h rfl
  | exact Keeps.setResp fun _ h => Held.same h rfl
  | intro _
  | split))

/-! ### The request functions -/

theorem requestConsume_held {n0 : Nat} {b : Bool} {r : Nat} (n : Nat) :
    Keeps (Held n0 Txs.request b r) Any (requestConsume n) := by
  unfold requestConsume
  store_walk

macro_rules | `(tactic| store_known) => `(tactic| exact requestConsume_held _)

theorem requestUnconsume_held {n0 : Nat} {b : Bool} {r : Nat} (n : Nat) :
    Keeps (Held n0 Txs.request b r) Any (requestUnconsume n) := by
  unfold requestUnconsume
  store_walk

macro_rules | `(tactic| store_known) => `(tactic| exact requestUnconsume_held _)

theorem requestReceiverSendData_held {e : Env} {n0 : Nat} (hn : e.cfg.maxTx = n0) {b : Bool} {r : Nat} :
    Keeps (Held n0 Txs.request b r) Any (requestReceiverSendData e) := by
  unfold requestReceiverSendData
  store_walk

macro_rules | `(tactic| store_known) => `(tactic| exact requestReceiverSendData_held (by assumption))

theorem requestReceiverFinalizeClear_held {e : Env} {n0 : Nat} (hn : e.cfg.maxTx = n0) {b : Bool} {r : Nat} :
    Keeps (Held n0 Txs.request b r) Any (requestReceiverFinalizeClear e) := by
  unfold requestReceiverFinalizeClear
  store_walk

macro_rules | `(tactic| store_known) => `(tactic| exact requestReceiverFinalizeClear_held (by assumption))

theorem requestSetReceiver_held {e : Env} {n0 : Nat} (hn : e.cfg.maxTx = n0) {b : Bool} {r : Nat} :
    Keeps (Held n0 Txs.request b r) Any (requestSetReceiver e) := by
  unfold requestSetReceiver
  store_walk

macro_rules | `(tactic| store_known) => `(tactic| exact requestSetReceiver_held (by assumption))

theorem requestHandleStateChange_held {e : Env} {n0 : Nat} (hn : e.cfg.maxTx = n0) {b : Bool} {r : Nat} :
    Keeps (Held n0 Txs.request b r) Any (requestHandleStateChange e) := by
  unfold requestHandleStateChange
  store_walk

macro_rules | `(tactic| store_known) => `(tactic| exact requestHandleStateChange_held (by assumption))

theorem handleRequestAbsentLf_held {e : Env} {n0 : Nat} (hn : e.cfg.maxTx = n0) {b : Bool} {r : Nat} :
    Keeps (Held n0 Txs.request b r) Any (handleRequestAbsentLf e) := by
  unfold handleRequestAbsentLf
  store_walk

macro_rules | `(tactic| store_known) => `(tactic| exact handleRequestAbsentLf_held (by assumption))

theorem requestRunHookBodyData_held {e : Env} {n0 : Nat} (hn : e.cfg.maxTx = n0) {b : Bool} {r : Nat} (d : PData) :
    Keeps (Held n0 Txs.request b r) Any (requestRunHookBodyData e d) := by
  unfold requestRunHookBodyData
  store_walk

macro_rules | `(tactic| store_known) => `(tactic| exact requestRunHookBodyData_held (by assumption) _)

theorem requestDecompressorCallback_held {e : Env} {n0 : Nat} (hn : e.cfg.maxTx = n0) {b : Bool} {r : Nat} (o : Option Bytes) :
    Keeps (Held n0 Txs.request b r) Any (requestDecompressorCallback e o) := by
  unfold requestDecompressorCallback
  store_walk

macro_rules | `(tactic| store_known) => `(tactic| exact requestDecompressorCallback_held (by assumption) _)

theorem requestDecompress_held {e : Env} {n0 : Nat} (hn : e.cfg.maxTx = n0) {b : Bool} {r : Nat} (o : Option Bytes) :
    Keeps (Held n0 Txs.request b r) Any (requestDecompress e o) := by
  unfold requestDecompress
  store_walk

macro_rules | `(tactic| store_known) => `(tactic| exact requestDecompress_held (by assumption) _)

theorem requestPlainBody_held {e : Env} {n0 : Nat} (hn : e.cfg.maxTx = n0) {b : Bool} {r : Nat} (o : Option Bytes) :
    Keeps (Held n0 Txs.request b r) Any (requestPlainBody e o) := by
  unfold requestPlainBody
  store_walk

macro_rules | `(tactic| store_known) => `(tactic| exact requestPlainBody_held (by assumption) _)

theorem requestBodyData_held {e : Env} {n0 : Nat} (hn : e.cfg.maxTx = n0) {b : Bool} {r : Nat} (o : Option Bytes) :
    Keeps (Held n0 Txs.request b r) Any (requestBodyData e o) := by
  unfold requestBodyData
  store_walk

macro_rules | `(tactic| store_known) => `(tactic| exact requestBodyData_held (by assumption) _)

theorem stateRequestStart_held {e : Env} {n0 : Nat} (hn : e.cfg.maxTx = n0) {b : Bool} {r : Nat} :
    Keeps (Held n0 Txs.request b r) Any (stateRequestStart e) := by
  unfold stateRequestStart
  store_walk

macro_rules | `(tactic| store_known) => `(tactic| exact stateRequestStart_held (by assumption))

theorem stateRequestTrailer_held {e : Env} {n0 : Nat} (hn : e.cfg.maxTx = n0) {b : Bool} {r : Nat} :
    Keeps (Held n0 Txs.request b r) Any (stateRequestTrailer e) := by
  unfold stateRequestTrailer
  store_walk

macro_rules | `(tactic| store_known) => `(tactic| exact stateRequestTrailer_held (by assumption))

theorem stateRequestHeadersDone_held {e : Env} {n0 : Nat} (hn : e.cfg.maxTx = n0) {b : Bool} {r : Nat} :
    Keeps (Held n0 Txs.request b r) Any (stateRequestHeadersDone e) := by
  unfold stateRequestHeadersDone
  store_walk

macro_rules | `(tactic| store_known) => `(tactic| exact stateRequestHeadersDone_held (by assumption))

theorem stateRequestHeaders_held {e : Env} {n0 : Nat} (hn : e.cfg.maxTx = n0) {b : Bool} {r : Nat} :
    Keeps (Held n0 Txs.request b r) Any (stateRequestHeaders e) := by
  unfold stateRequestHeaders
  store_walk

macro_rules | `(tactic| store_known) => `(tactic| exact stateRequestHeaders_held (by assumption))

theorem stateRequestLine_held {e : Env} {n0 : Nat} (hn : e.cfg.maxTx = n0) {b : Bool} {r : Nat} :
    Keeps (Held n0 Txs.request b r) Any (stateRequestLine e) := by
  unfold stateRequestLine
  store_walk

macro_rules | `(tactic| store_known) => `(tactic| exact stateRequestLine_held (by assumption))

theorem finalizeTx_held {e : Env} {n0 : Nat} {sel : Txs → Nat} {b : Bool} {r : Nat} (i : Nat) :
    Keeps (Held n0 sel b r) Any (finalizeTx e i) := by
  unfold finalizeTx
  store_walk

macro_rules | `(tactic| store_known) => `(tactic| exact finalizeTx_held _)

theorem completeRequest_held {e : Env} {n0 : Nat} (hn : e.cfg.maxTx = n0) {b : Bool} {r : Nat} (t : Tx) :
    Keeps (Held n0 Txs.request b r) Any (completeRequest e t) := by
  unfold completeRequest
  store_walk

macro_rules | `(tactic| store_known) => `(tactic| exact completeRequest_held (by assumption) _)

theorem requestConnectCheck_held {e : Env} {n0 : Nat} (hn : e.cfg.maxTx = n0) {b : Bool} {r : Nat} :
    Keeps (Held n0 Txs.request b r) Any (requestConnectCheck e) := by
  unfold requestConnectCheck
  store_walk

macro_rules | `(tactic| store_known) => `(tactic| exact requestConnectCheck_held (by assumption))

theorem requestConnectWaitResponse_held {e : Env} {n0 : Nat} (hn : e.cfg.maxTx = n0) {b : Bool} {r : Nat} :
    Keeps (Held n0 Txs.request b r) Any (requestConnectWaitResponse e) := by
  unfold requestConnectWaitResponse
  store_walk

macro_rules | `(tactic| store_known) => `(tactic| exact requestConnectWaitResponse_held (by assumption))

theorem requestBodyChunkedDataEnd_held {e : Env} {n0 : Nat} (hn : e.cfg.maxTx = n0) {b : Bool} {r : Nat} :
    Keeps (Held n0 Txs.request b r) Any (requestBodyChunkedDataEnd e) := by
  unfold requestBodyChunkedDataEnd
  store_walk

macro_rules | `(tactic| store_known) => `(tactic| exact requestBodyChunkedDataEnd_held (by assumption))

theorem requestBodyChunkedData_held {e : Env} {n0 : Nat} (hn : e.cfg.maxTx = n0) {b : Bool} {r : Nat} :
    Keeps (Held n0 Txs.request b r) Any (requestBodyChunkedData e) := by
  unfold requestBodyChunkedData
  store_walk

macro_rules | `(tactic| store_known) => `(tactic| exact requestBodyChunkedData_held (by assumption))

theorem requestChunkLine_held {e : Env} {n0 : Nat} (hn : e.cfg.maxTx = n0) {b : Bool} {r : Nat} (l : Bytes) :
    Keeps (Held n0 Txs.request b r) Any (requestChunkLine e l) := by
  unfold requestChunkLine
  store_walk

macro_rules | `(tactic| store_known) => `(tactic| exact requestChunkLine_held (by assumption) _)

theorem requestChunkedLengthLoop_held {e : Env} {n0 : Nat} (hn : e.cfg.maxTx = n0) {b : Bool} {r : Nat} (d : Bytes) :
    Keeps (Held n0 Txs.request b r) Any (requestChunkedLengthLoop e d) := by
  induction h : d.length using Nat.strongRecOn generalizing d with
  | ind n ih =>
    unfold requestChunkedLengthLoop
    split
    next remaining line hl =>
      have := takeTillIncl_shorter hl
      have ih := ih remaining.length (by omega) remaining rfl
      store_walk
    all_goals store_walk

macro_rules | `(tactic| store_known) => `(tactic| exact requestChunkedLengthLoop_held (by assumption) _)

theorem requestBodyChunkedLength_held {e : Env} {n0 : Nat} (hn : e.cfg.maxTx = n0) {b : Bool} {r : Nat} :
    Keeps (Held n0 Txs.request b r) Any (requestBodyChunkedLength e) := by
  unfold requestBodyChunkedLength
  store_walk

macro_rules | `(tactic| store_known) => `(tactic| exact requestBodyChunkedLength_held (by assumption))

theorem requestIdentityData_held {e : Env} {n0 : Nat} (hn : e.cfg.maxTx = n0) {b : Bool} {r : Nat} (n : Nat) :
    Keeps (Held n0 Txs.request b r) Any (requestIdentityData e n) := by
  unfold requestIdentityData
  store_walk

macro_rules | `(tactic| store_known) => `(tactic| exact requestIdentityData_held (by assumption) _)

theorem requestBodyIdentity_held {e : Env} {n0 : Nat} (hn : e.cfg.maxTx = n0) {b : Bool} {r : Nat} :
    Keeps (Held n0 Txs.request b r) Any (requestBodyIdentity e) := by
  unfold requestBodyIdentity
  store_walk

macro_rules | `(tactic| store_known) => `(tactic| exact requestBodyIdentity_held (by assumption))

theorem requestBodyDetermine_held {e : Env} {n0 : Nat} (hn : e.cfg.maxTx = n0) {b : Bool} {r : Nat} :
    Keeps (Held n0 Txs.request b r) Any (requestBodyDetermine e) := by
  unfold requestBodyDetermine
  store_walk

macro_rules | `(tactic| store_known) => `(tactic| exact requestBodyDetermine_held (by assumption))

theorem requestHeadersClosed_held {e : Env} {n0 : Nat} (hn : e.cfg.maxTx = n0) {b : Bool} {r : Nat} :
    Keeps (Held n0 Txs.request b r) Any (requestHeadersClosed e) := by
  unfold requestHeadersClosed
  store_walk

macro_rules | `(tactic| store_known) => `(tactic| exact requestHeadersClosed_held (by assumption))

theorem requestHeaders_held {e : Env} {n0 : Nat} (hn : e.cfg.maxTx = n0) {b : Bool} {r : Nat} :
    Keeps (Held n0 Txs.request b r) Any (requestHeaders e) := by
  unfold requestHeaders
  store_walk

macro_rules | `(tactic| store_known) => `(tactic| exact requestHeaders_held (by assumption))

theorem requestProtocol_held {e : Env} {n0 : Nat} (hn : e.cfg.maxTx = n0) {b : Bool} {r : Nat} :
    Keeps (Held n0 Txs.request b r) Any (requestProtocol e) := by
  unfold requestProtocol
  store_walk

macro_rules | `(tactic| store_known) => `(tactic| exact requestProtocol_held (by assumption))

theorem requestLineComplete_held {e : Env} {n0 : Nat} (hn : e.cfg.maxTx = n0) {b : Bool} {r : Nat} (l : Bytes) :
    Keeps (Held n0 Txs.request b r) Any (requestLineComplete e l) := by
  unfold requestLineComplete
  store_walk

macro_rules | `(tactic| store_known) => `(tactic| exact requestLineComplete_held (by assumption) _)

theorem requestLine_held {e : Env} {n0 : Nat} (hn : e.cfg.maxTx = n0) {b : Bool} {r : Nat} :
    Keeps (Held n0 Txs.request b r) Any (requestLine e) := by
  unfold requestLine
  store_walk

macro_rules | `(tactic| store_known) => `(tactic| exact requestLine_held (by assumption))

theorem requestIgnoreDataAfterHttp09_held {n0 : Nat} {b : Bool} {r : Nat} :
    Keeps (Held n0 Txs.request b r) Any requestIgnoreDataAfterHttp09 := by
  unfold requestIgnoreDataAfterHttp09
  store_walk

macro_rules | `(tactic| store_known) => `(tactic| exact requestIgnoreDataAfterHttp09_held)

theorem requestReset_held {n0 : Nat} {b : Bool} {r : Nat} :
    Keeps (Held n0 Txs.request b r) Any requestReset := by
  unfold requestReset
  store_walk

macro_rules | `(tactic| store_known) => `(tactic| exact requestReset_held)

theorem requestIdle_held {e : Env} {n0 : Nat} (hn : e.cfg.maxTx = n0) {b : Bool} {r : Nat} :
    Keeps (Held n0 Txs.request b r) Any (requestIdle e) := by
  unfold requestIdle
  store_walk

macro_rules | `(tactic| store_known) => `(tactic| exact requestIdle_held (by assumption))

theorem requestAfterStep_held {e : Env} {n0 : Nat} (hn : e.cfg.maxTx = n0) {b : Bool} {r : Nat} (rc : Except Status Unit) :
    Keeps (Held n0 Txs.request b r) Any (requestAfterStep e rc) := by
  unfold requestAfterStep requestReturn
  store_walk

macro_rules | `(tactic| store_known) => `(tactic| exact requestAfterStep_held (by assumption) _)


/-! ### The response functions -/

theorem responseConsume_held {n0 : Nat} {b : Bool} {r : Nat} :
    Keeps (Held n0 Txs.response b r) Any (responseConsume n) := by
  unfold responseConsume
  store_walk

macro_rules | `(tactic| store_known) => `(tactic| exact responseConsume_held)

theorem responseUnconsume_held {n0 : Nat} {b : Bool} {r : Nat} :
    Keeps (Held n0 Txs.response b r) Any (responseUnconsume n) := by
  unfold responseUnconsume
  store_walk

macro_rules | `(tactic| store_known) => `(tactic| exact responseUnconsume_held)

theorem responseReceiverSendData_held {e : Env} {n0 : Nat} (hn : e.cfg.maxTx = n0) {b : Bool} {r : Nat} :
    Keeps (Held n0 Txs.response b r) Any (responseReceiverSendData e) := by
  unfold responseReceiverSendData
  store_walk

macro_rules | `(tactic| store_known) => `(tactic| exact responseReceiverSendData_held (by assumption))

theorem responseReceiverFinalizeClear_held {e : Env} {n0 : Nat} (hn : e.cfg.maxTx = n0) {b : Bool} {r : Nat} :
    Keeps (Held n0 Txs.response b r) Any (responseReceiverFinalizeClear e) := by
  unfold responseReceiverFinalizeClear
  store_walk

macro_rules | `(tactic| store_known) => `(tactic| exact responseReceiverFinalizeClear_held (by assumption))

theorem responseHandleStateChange_held {e : Env} {n0 : Nat} (hn : e.cfg.maxTx = n0) {b : Bool} {r : Nat} :
    Keeps (Held n0 Txs.response b r) Any (responseHandleStateChange e) := by
  unfold responseHandleStateChange responseSetReceiver
  store_walk

macro_rules | `(tactic| store_known) => `(tactic| exact responseHandleStateChange_held (by assumption))

theorem handleResponseAbsentLf_held {e : Env} {n0 : Nat} (hn : e.cfg.maxTx = n0) {b : Bool} {r : Nat} :
    Keeps (Held n0 Txs.response b r) Any (handleResponseAbsentLf e) := by
  unfold handleResponseAbsentLf
  store_walk

macro_rules | `(tactic| store_known) => `(tactic| exact handleResponseAbsentLf_held (by assumption))

theorem responseRunHookBodyData_held {e : Env} {n0 : Nat} (hn : e.cfg.maxTx = n0) {b : Bool} {r : Nat} (d : PData) :
    Keeps (Held n0 Txs.response b r) Any (responseRunHookBodyData e d) := by
  unfold responseRunHookBodyData
  store_walk

macro_rules | `(tactic| store_known) => `(tactic| exact responseRunHookBodyData_held (by assumption) _)

theorem responseDecompressorCallback_held {e : Env} {n0 : Nat} (hn : e.cfg.maxTx = n0) {b : Bool} {r : Nat} (o : Option Bytes) :
    Keeps (Held n0 Txs.response b r) Any (responseDecompressorCallback e o) := by
  unfold responseDecompressorCallback
  store_walk

macro_rules | `(tactic| store_known) => `(tactic| exact responseDecompressorCallback_held (by assumption) _)

theorem responseDecompress_held {e : Env} {n0 : Nat} (hn : e.cfg.maxTx = n0) {b : Bool} {r : Nat} (o : Option Bytes) :
    Keeps (Held n0 Txs.response b r) Any (responseDecompress e o) := by
  unfold responseDecompress
  store_walk

macro_rules | `(tactic| store_known) => `(tactic| exact responseDecompress_held (by assumption) _)

theorem responsePlainBody_held {e : Env} {n0 : Nat} (hn : e.cfg.maxTx = n0) {b : Bool} {r : Nat} (o : Option Bytes) :
    Keeps (Held n0 Txs.response b r) Any (responsePlainBody e o) := by
  unfold responsePlainBody
  store_walk

macro_rules | `(tactic| store_known) => `(tactic| exact responsePlainBody_held (by assumption) _)

theorem responseBodyData_held {e : Env} {n0 : Nat} (hn : e.cfg.maxTx = n0) {b : Bool} {r : Nat} (o : Option Bytes) :
    Keeps (Held n0 Txs.response b r) Any (responseBodyData e o) := by
  unfold responseBodyData
  store_walk

macro_rules | `(tactic| store_known) => `(tactic| exact responseBodyData_held (by assumption) _)

theorem responseBodyChunkedDataEnd_held {e : Env} {n0 : Nat} (hn : e.cfg.maxTx = n0) {b : Bool} {r : Nat} :
    Keeps (Held n0 Txs.response b r) Any (responseBodyChunkedDataEnd e) := by
  unfold responseBodyChunkedDataEnd
  store_walk

macro_rules | `(tactic| store_known) => `(tactic| exact responseBodyChunkedDataEnd_held (by assumption))

theorem responseBodyChunkedData_held {e : Env} {n0 : Nat} (hn : e.cfg.maxTx = n0) {b : Bool} {r : Nat} :
    Keeps (Held n0 Txs.response b r) Any (responseBodyChunkedData e) := by
  unfold responseBodyChunkedData
  store_walk

macro_rules | `(tactic| store_known) => `(tactic| exact responseBodyChunkedData_held (by assumption))

theorem responseChunkLine_held {e : Env} {n0 : Nat} (hn : e.cfg.maxTx = n0) {b : Bool} {r : Nat} (line : Bytes) :
    Keeps (Held n0 Txs.response b r) Any (responseChunkLine e line) := by
  unfold responseChunkLine
  store_walk

macro_rules | `(tactic| store_known) => `(tactic| exact responseChunkLine_held (by assumption) _)

theorem responseChunkedLengthLoop_held {e : Env} {n0 : Nat} (hn : e.cfg.maxTx = n0) {b : Bool} {r : Nat} (d : Bytes) :
    Keeps (Held n0 Txs.response b r) Any (responseChunkedLengthLoop e d) := by
  induction h : d.length using Nat.strongRecOn generalizing d with
  | ind n ih =>
    unfold responseChunkedLengthLoop
    refine Keeps.bind (Held.responseTx hn) fun t ht => ?_
    split
    next remaining line hl =>
      have := takeTillIncl_shorter hl
      have ih := ih remaining.length (by omega) remaining rfl
      store_walk
    all_goals store_walk

macro_rules | `(tactic| store_known) => `(tactic| exact responseChunkedLengthLoop_held (by assumption) _)

theorem responseBodyChunkedLength_held {e : Env} {n0 : Nat} (hn : e.cfg.maxTx = n0) {b : Bool} {r : Nat} :
    Keeps (Held n0 Txs.response b r) Any (responseBodyChunkedLength e) := by
  unfold responseBodyChunkedLength
  store_walk

macro_rules | `(tactic| store_known) => `(tactic| exact responseBodyChunkedLength_held (by assumption))

theorem responseIdentityData_held {e : Env} {n0 : Nat} (hn : e.cfg.maxTx = n0) {b : Bool} {r : Nat} (n : Nat) :
    Keeps (Held n0 Txs.response b r) Any (responseIdentityData e n) := by
  unfold responseIdentityData
  store_walk

macro_rules | `(tactic| store_known) => `(tactic| exact responseIdentityData_held (by assumption) _)

theorem responseIdentityOpen_held {e : Env} {n0 : Nat} (hn : e.cfg.maxTx = n0) {b : Bool} {r : Nat} :
    Keeps (Held n0 Txs.response b r) Any (responseIdentityOpen e) := by
  unfold responseIdentityOpen
  store_walk

macro_rules | `(tactic| store_known) => `(tactic| exact responseIdentityOpen_held (by assumption))

theorem responseBodyIdentityClKnown_held {e : Env} {n0 : Nat} (hn : e.cfg.maxTx = n0) {b : Bool} {r : Nat} :
    Keeps (Held n0 Txs.response b r) Any (responseBodyIdentityClKnown e) := by
  unfold responseBodyIdentityClKnown
  store_walk

macro_rules | `(tactic| store_known) => `(tactic| exact responseBodyIdentityClKnown_held (by assumption))

theorem responseStreamData_held {e : Env} {n0 : Nat} (hn : e.cfg.maxTx = n0) {b : Bool} {r : Nat} :
    Keeps (Held n0 Txs.response b r) Any (responseStreamData e) := by
  unfold responseStreamData
  store_walk

macro_rules | `(tactic| store_known) => `(tactic| exact responseStreamData_held (by assumption))

theorem responseBodyIdentityStreamClose_held {e : Env} {n0 : Nat} (hn : e.cfg.maxTx = n0) {b : Bool} {r : Nat} :
    Keeps (Held n0 Txs.response b r) Any (responseBodyIdentityStreamClose e) := by
  unfold responseBodyIdentityStreamClose
  store_walk

macro_rules | `(tactic| store_known) => `(tactic| exact responseBodyIdentityStreamClose_held (by assumption))

theorem stateResponseHeaders_held {e : Env} {n0 : Nat} (hn : e.cfg.maxTx = n0) {b : Bool} {r : Nat} :
    Keeps (Held n0 Txs.response b r) Any (stateResponseHeaders e) := by
  unfold stateResponseHeaders
  store_walk

macro_rules | `(tactic| store_known) => `(tactic| exact stateResponseHeaders_held (by assumption))

theorem stateResponseLine_held {e : Env} {n0 : Nat} (hn : e.cfg.maxTx = n0) {b : Bool} {r : Nat} :
    Keeps (Held n0 Txs.response b r) Any (stateResponseLine e) := by
  unfold stateResponseLine
  store_walk

macro_rules | `(tactic| store_known) => `(tactic| exact stateResponseLine_held (by assumption))

theorem completeResponse_held {e : Env} {n0 : Nat} (hn : e.cfg.maxTx = n0) {b : Bool} {r : Nat} (t : Tx) (hb : b = true) :
    Keeps (Held n0 Txs.response b r) Any (completeResponse e t) := by
  unfold completeResponse
  store_walk

macro_rules | `(tactic| store_known) => `(tactic| exact completeResponse_held (by assumption) _ (by assumption))

theorem requestParserCheckWaiting_held {n0 : Nat} {b : Bool} {r : Nat} :
    Keeps (Held n0 Txs.response b r) Any requestParserCheckWaiting := by
  unfold requestParserCheckWaiting
  store_walk

macro_rules | `(tactic| store_known) => `(tactic| exact requestParserCheckWaiting_held)

theorem unblockRequest_held {n0 : Nat} {b : Bool} {r : Nat} :
    Keeps (Held n0 Txs.response b r) Any unblockRequest := by
  unfold unblockRequest
  store_walk

macro_rules | `(tactic| store_known) => `(tactic| exact unblockRequest_held)

theorem responseSwitch_held {n0 : Nat} {b : Bool} {r : Nat} :
    Keeps (Held n0 Txs.response b r) Any responseSwitch := by
  unfold responseSwitch
  store_walk

macro_rules | `(tactic| store_known) => `(tactic| exact responseSwitch_held)

theorem responseConnect_held {e : Env} {n0 : Nat} (hn : e.cfg.maxTx = n0) {b : Bool} {r : Nat} :
    Keeps (Held n0 Txs.response b r) Any (responseConnect e) := by
  unfold responseConnect
  store_walk

macro_rules | `(tactic| store_known) => `(tactic| exact responseConnect_held (by assumption))

theorem responseContinue_held {e : Env} {n0 : Nat} (hn : e.cfg.maxTx = n0) {b : Bool} {r : Nat} :
    Keeps (Held n0 Txs.response b r) Any (responseContinue e) := by
  unfold responseContinue
  store_walk

macro_rules | `(tactic| store_known) => `(tactic| exact responseContinue_held (by assumption))

theorem responseExpect_held {e : Env} {n0 : Nat} (hn : e.cfg.maxTx = n0) {b : Bool} {r : Nat} :
    Keeps (Held n0 Txs.response b r) Any (responseExpect e) := by
  unfold responseExpect
  store_walk

macro_rules | `(tactic| store_known) => `(tactic| exact responseExpect_held (by assumption))

theorem responseInterim_held {e : Env} {n0 : Nat} (hn : e.cfg.maxTx = n0) {b : Bool} {r : Nat} (te : Option Header) (cl : Option Header) :
    Keeps (Held n0 Txs.response b r) Any (responseInterim e te cl) := by
  unfold responseInterim
  store_walk

macro_rules | `(tactic| store_known) => `(tactic| exact responseInterim_held (by assumption) _ _)

theorem responseNoBody_held {e : Env} {n0 : Nat} (hn : e.cfg.maxTx = n0) {b : Bool} {r : Nat} (te : Option Header) (cl : Option Header) :
    Keeps (Held n0 Txs.response b r) Any (responseNoBody e te cl) := by
  unfold responseNoBody
  store_walk

macro_rules | `(tactic| store_known) => `(tactic| exact responseNoBody_held (by assumption) _ _)

theorem responseChunked_held {e : Env} {n0 : Nat} (hn : e.cfg.maxTx = n0) {b : Bool} {r : Nat} (cl : Option Header) :
    Keeps (Held n0 Txs.response b r) Any (responseChunked e cl) := by
  unfold responseChunked
  store_walk

macro_rules | `(tactic| store_known) => `(tactic| exact responseChunked_held (by assumption) _)

theorem responseLength_held {e : Env} {n0 : Nat} (hn : e.cfg.maxTx = n0) {b : Bool} {r : Nat} (cl : Header) :
    Keeps (Held n0 Txs.response b r) Any (responseLength e cl) := by
  unfold responseLength
  store_walk

macro_rules | `(tactic| store_known) => `(tactic| exact responseLength_held (by assumption) _)

theorem responseUntilClose_held {e : Env} {n0 : Nat} (hn : e.cfg.maxTx = n0) {b : Bool} {r : Nat} (b0 : Bool) :
    Keeps (Held n0 Txs.response b r) Any (responseUntilClose e b0) := by
  unfold responseUntilClose
  store_walk

macro_rules | `(tactic| store_known) => `(tactic| exact responseUntilClose_held (by assumption) _)

theorem responseFraming_held {e : Env} {n0 : Nat} (hn : e.cfg.maxTx = n0) {b : Bool} {r : Nat} (te : Option Header) (cl : Option Header) :
    Keeps (Held n0 Txs.response b r) Any (responseFraming e te cl) := by
  unfold responseFraming
  store_walk

macro_rules | `(tactic| store_known) => `(tactic| exact responseFraming_held (by assumption) _ _)

theorem responseBody_held {e : Env} {n0 : Nat} (hn : e.cfg.maxTx = n0) {b : Bool} {r : Nat} (te : Option Header) (cl : Option Header) :
    Keeps (Held n0 Txs.response b r) Any (responseBody e te cl) := by
  unfold responseBody
  store_walk

macro_rules | `(tactic| store_known) => `(tactic| exact responseBody_held (by assumption) _ _)

theorem responseDetermineRest_held {e : Env} {n0 : Nat} (hn : e.cfg.maxTx = n0) {b : Bool} {r : Nat} :
    Keeps (Held n0 Txs.response b r) Any (responseDetermineRest e) := by
  unfold responseDetermineRest
  store_walk

macro_rules | `(tactic| store_known) => `(tactic| exact responseDetermineRest_held (by assumption))

theorem responseBodyDetermine_held {e : Env} {n0 : Nat} (hn : e.cfg.maxTx = n0) {b : Bool} {r : Nat} :
    Keeps (Held n0 Txs.response b r) Any (responseBodyDetermine e) := by
  unfold responseBodyDetermine
  store_walk

macro_rules | `(tactic| store_known) => `(tactic| exact responseBodyDetermine_held (by assumption))

theorem responseLineAsBody_held {e : Env} {n0 : Nat} (hn : e.cfg.maxTx = n0) {b : Bool} {r : Nat} (line : Bytes) :
    Keeps (Held n0 Txs.response b r) Any (responseLineAsBody e line) := by
  unfold responseLineAsBody
  store_walk

macro_rules | `(tactic| store_known) => `(tactic| exact responseLineAsBody_held (by assumption) _)

theorem responseLineRead_held {e : Env} {n0 : Nat} (hn : e.cfg.maxTx = n0) {b : Bool} {r : Nat} (line : Bytes) :
    Keeps (Held n0 Txs.response b r) Any (responseLineRead e line) := by
  unfold responseLineRead
  store_walk

macro_rules | `(tactic| store_known) => `(tactic| exact responseLineRead_held (by assumption) _)

theorem responseLineComplete_held {e : Env} {n0 : Nat} (hn : e.cfg.maxTx = n0) {b : Bool} {r : Nat} (line : Bytes) :
    Keeps (Held n0 Txs.response b r) Any (responseLineComplete e line) := by
  unfold responseLineComplete
  store_walk

macro_rules | `(tactic| store_known) => `(tactic| exact responseLineComplete_held (by assumption) _)

theorem responseLine_held {e : Env} {n0 : Nat} (hn : e.cfg.maxTx = n0) {b : Bool} {r : Nat} :
    Keeps (Held n0 Txs.response b r) Any (responseLine e) := by
  unfold responseLine
  store_walk

macro_rules | `(tactic| store_known) => `(tactic| exact responseLine_held (by assumption))

theorem responseTrailer_held {e : Env} {n0 : Nat} (hn : e.cfg.maxTx = n0) {b : Bool} {r : Nat} :
    Keeps (Held n0 Txs.response b r) Any (responseTrailer e) := by
  unfold responseTrailer
  store_walk

macro_rules | `(tactic| store_known) => `(tactic| exact responseTrailer_held (by assumption))

theorem responseHeadersClosed_held {e : Env} {n0 : Nat} (hn : e.cfg.maxTx = n0) {b : Bool} {r : Nat} :
    Keeps (Held n0 Txs.response b r) Any (responseHeadersClosed e) := by
  unfold responseHeadersClosed
  store_walk

macro_rules | `(tactic| store_known) => `(tactic| exact responseHeadersClosed_held (by assumption))

theorem responseHeadersDone_held {e : Env} {n0 : Nat} (hn : e.cfg.maxTx = n0) {b : Bool} {r : Nat} :
    Keeps (Held n0 Txs.response b r) Any (responseHeadersDone e) := by
  unfold responseHeadersDone
  store_walk

macro_rules | `(tactic| store_known) => `(tactic| exact responseHeadersDone_held (by assumption))

theorem responseHeaders_held {e : Env} {n0 : Nat} (hn : e.cfg.maxTx = n0) {b : Bool} {r : Nat} :
    Keeps (Held n0 Txs.response b r) Any (responseHeaders e) := by
  unfold responseHeaders
  store_walk

macro_rules | `(tactic| store_known) => `(tactic| exact responseHeaders_held (by assumption))


end Model

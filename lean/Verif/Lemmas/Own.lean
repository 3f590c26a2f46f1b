/-
The callbacks run by a call belong to the side that is fed, and to the transactions it works on.
-/
import Verif.Lemmas.OrderSide
import Verif.Lemmas.OtherMessage
import Verif.Spec.Callbacks

namespace Model

open M Spec

/-- Since `old` only callbacks of requests have been run, for transactions from `lo` to the current one, `r`. -/
structure OwnReq (old : List Event) (lo r : Nat) (s : Conn) : Prop where
  request : s.txs.request = r
  lower : lo ≤ r
  base : Base s
  events : ∃ evs, s.trace = old ++ evs ∧ ∀ ev ∈ evs, ∃ i, requestCallback ev = some i ∧ lo ≤ i ∧ i ≤ r

theorem OwnReq.stable {old : List Event} {lo r : Nat} : ReqStable (OwnReq old lo r) (fun t => t.index = r) where
  get h ht := (h.base.1 _ _ ht).trans h.1
  new h _ := h.1
  put {s t} h ht := by
    refine ⟨h.1, h.2, ⟨?_, h.base.2, h.base.3⟩, h.4⟩
    intro i u hu
    have hu' : (s.txs.set s.txs.request t).get i = some u := hu
    rw [Txs.get_set] at hu'
    split at hu'
    · next hi => cases hu'; rw [hi, h.1]; exact ht
    · exact h.base.1 i u hu'

macro_rules | `(tactic| keeps_stable) => `(tactic| exact OwnReq.stable)

theorem events_emit {f : Event → Option Nat} {old tr : List Event} {lo r : Nat} {ev : Event} (hl : lo ≤ r) (hev : f ev = some r)
    (h : ∃ evs, tr = old ++ evs ∧ ∀ ev ∈ evs, ∃ i, f ev = some i ∧ lo ≤ i ∧ i ≤ r) :
    ∃ evs, tr ++ [ev] = old ++ evs ∧ ∀ ev ∈ evs, ∃ i, f ev = some i ∧ lo ≤ i ∧ i ≤ r := by
  obtain ⟨evs, h1, h2⟩ := h
  refine ⟨evs ++ [ev], by rw [h1, List.append_assoc], fun x hx => ?_⟩
  rcases List.mem_append.1 hx with hx | hx
  · exact h2 x hx
  · rw [List.mem_singleton] at hx
    rw [hx]
    exact ⟨r, hev, hl, Nat.le_refl r⟩

theorem OwnReq.emit {old : List Event} {lo r : Nat} {s : Conn} {ev : Event} (h : OwnReq old lo r s) (hev : requestCallback ev = some r) :
    OwnReq old lo r { s with trace := s.trace ++ [ev] } :=
  ⟨h.1, h.2, ⟨h.base.1, h.base.2, h.base.3⟩, events_emit h.2 hev h.4⟩

theorem OwnReq.setReq {old : List Event} {lo r : Nat} {s : Conn} {h' : Half} (h : OwnReq old lo r s)
    (hr : h'.receiver = s.req.receiver ∨ h'.receiver = none ∨ h'.receiver = some .requestHeaderData ∨
      h'.receiver = some .requestTrailerData) : OwnReq old lo r { s with req := h' } := by
  refine ⟨h.1, h.2, ⟨h.base.1, h.base.2, ?_⟩, h.4⟩
  intro x (hx : h'.receiver = some x)
  rcases hr with hr | hr | hr | hr <;> rw [hr] at hx
  · exact h.base.3 x hx
  · cases hx
  · cases hx; exact .inl rfl
  · cases hx; exact .inr rfl

/-- Closes the goals `keeps_walk` leaves. -/
macro "own_leaf" : tactic => `(tactic|
  first
  | assumption
  | (rename_i ht; exact ht)
  | (refine OwnReq.setReq (by assumption) ?_; first | exact Or.inl rfl | (simp; done))
  | (refine OwnReq.emit (by assumption) ?_; first | exact congrArg some (OwnReq.request (by assumption)) | exact congrArg some (by assumption))
  | (rename_i h; exact ⟨h.1, h.2, ⟨h.base.1, h.base.2, h.base.3⟩, h.4⟩))

theorem requestConsume_own {old : List Event} {lo r : Nat} (n : Nat) : Keeps (OwnReq old lo r) Any (requestConsume n) := by
  unfold requestConsume
  keeps_walk <;> own_leaf

macro_rules | `(tactic| keeps_known) => `(tactic| exact requestConsume_own _)

theorem requestUnconsume_own {old : List Event} {lo r : Nat} (n : Nat) : Keeps (OwnReq old lo r) Any (requestUnconsume n) := by
  unfold requestUnconsume
  keeps_walk <;> own_leaf

macro_rules | `(tactic| keeps_known) => `(tactic| exact requestUnconsume_own _)

theorem requestReceiverSendData_own {old : List Event} {lo r : Nat} (e : Env) : Keeps (OwnReq old lo r) Any (requestReceiverSendData e) := by
  unfold requestReceiverSendData
  refine Keeps.bind_state fun s1 h1 => ?_
  refine Keeps.bind (F := Any) (by keeps_walk; own_leaf) fun _ _ => ?_
  refine Keeps.bind (Keeps.requestTx OwnReq.stable) fun t ht => ?_
  cases hr : s1.req.receiver with
  | none => exact Keeps.pure
  | some x =>
    refine Keeps.emit fun s h => ?_
    rcases h1.base.3 x hr with rfl | rfl <;> exact h.emit (congrArg some h1.request)

macro_rules | `(tactic| keeps_known) => `(tactic| exact requestReceiverSendData_own _)

theorem requestReceiverFinalizeClear_own {old : List Event} {lo r : Nat} (e : Env) : Keeps (OwnReq old lo r) Any (requestReceiverFinalizeClear e) := by
  unfold requestReceiverFinalizeClear
  keeps_walk <;> own_leaf

macro_rules | `(tactic| keeps_known) => `(tactic| exact requestReceiverFinalizeClear_own _)

theorem requestSetReceiver_own {old : List Event} {lo r : Nat} (e : Env) : Keeps (OwnReq old lo r) Any (requestSetReceiver e) := by
  unfold requestSetReceiver
  keeps_walk <;> own_leaf

macro_rules | `(tactic| keeps_known) => `(tactic| exact requestSetReceiver_own _)

theorem requestHandleStateChange_own {old : List Event} {lo r : Nat} (e : Env) : Keeps (OwnReq old lo r) Any (requestHandleStateChange e) := by
  unfold requestHandleStateChange
  keeps_walk <;> own_leaf

macro_rules | `(tactic| keeps_known) => `(tactic| exact requestHandleStateChange_own _)

theorem handleRequestAbsentLf_own {old : List Event} {lo r : Nat} (e : Env) : Keeps (OwnReq old lo r) Any (handleRequestAbsentLf e) := by
  unfold handleRequestAbsentLf
  keeps_walk <;> own_leaf

macro_rules | `(tactic| keeps_known) => `(tactic| exact handleRequestAbsentLf_own _)

theorem requestRunHookBodyData_own {old : List Event} {lo r : Nat} (e : Env) (d : PData) : Keeps (OwnReq old lo r) Any (requestRunHookBodyData e d) := by
  unfold requestRunHookBodyData
  keeps_walk <;> own_leaf

macro_rules | `(tactic| keeps_known) => `(tactic| exact requestRunHookBodyData_own _ _)

theorem requestDecompressorCallback_own {old : List Event} {lo r : Nat} (e : Env) (o : Option Bytes) : Keeps (OwnReq old lo r) Any (requestDecompressorCallback e o) := by
  unfold requestDecompressorCallback
  keeps_walk <;> own_leaf

macro_rules | `(tactic| keeps_known) => `(tactic| exact requestDecompressorCallback_own _ _)

theorem requestDecompress_own {old : List Event} {lo r : Nat} (e : Env) (o : Option Bytes) : Keeps (OwnReq old lo r) Any (requestDecompress e o) := by
  unfold requestDecompress
  keeps_walk <;> own_leaf

macro_rules | `(tactic| keeps_known) => `(tactic| exact requestDecompress_own _ _)

theorem requestPlainBody_own {old : List Event} {lo r : Nat} (e : Env) (o : Option Bytes) : Keeps (OwnReq old lo r) Any (requestPlainBody e o) := by
  unfold requestPlainBody
  keeps_walk <;> own_leaf

macro_rules | `(tactic| keeps_known) => `(tactic| exact requestPlainBody_own _ _)

theorem requestBodyData_own {old : List Event} {lo r : Nat} (e : Env) (o : Option Bytes) : Keeps (OwnReq old lo r) Any (requestBodyData e o) := by
  unfold requestBodyData
  keeps_walk <;> own_leaf

macro_rules | `(tactic| keeps_known) => `(tactic| exact requestBodyData_own _ _)

theorem stateRequestStart_own {old : List Event} {lo r : Nat} (e : Env) : Keeps (OwnReq old lo r) Any (stateRequestStart e) := by
  unfold stateRequestStart
  keeps_walk <;> own_leaf

macro_rules | `(tactic| keeps_known) => `(tactic| exact stateRequestStart_own _)

theorem stateRequestTrailer_own {old : List Event} {lo r : Nat} (e : Env) : Keeps (OwnReq old lo r) Any (stateRequestTrailer e) := by
  unfold stateRequestTrailer
  keeps_walk <;> own_leaf

macro_rules | `(tactic| keeps_known) => `(tactic| exact stateRequestTrailer_own _)

theorem stateRequestHeadersDone_own {old : List Event} {lo r : Nat} (e : Env) : Keeps (OwnReq old lo r) Any (stateRequestHeadersDone e) := by
  unfold stateRequestHeadersDone
  keeps_walk <;> (first | own_leaf | (rename_i ht; exact index_of_tag ht (Tx.tag_processRequestHeaders _ _)) | (rename_i ht; exact index_of_tag ht (Tx.tag_initRequestDecompressors _ _)))

macro_rules | `(tactic| keeps_known) => `(tactic| exact stateRequestHeadersDone_own _)

theorem stateRequestHeaders_own {old : List Event} {lo r : Nat} (e : Env) : Keeps (OwnReq old lo r) Any (stateRequestHeaders e) := by
  unfold stateRequestHeaders
  keeps_walk <;> own_leaf

macro_rules | `(tactic| keeps_known) => `(tactic| exact stateRequestHeaders_own _)

theorem stateRequestLine_own {old : List Event} {lo r : Nat} (e : Env) : Keeps (OwnReq old lo r) Any (stateRequestLine e) := by
  unfold stateRequestLine
  keeps_walk <;> (first | own_leaf | (rename_i ht; exact index_of_tag ht (Tx.tag_parseRequestLine _ _)) | (rename_i ht _ _ hu; exact index_of_tag ht (Tx.tag_storeNormalizedUri _ _ hu)))

macro_rules | `(tactic| keeps_known) => `(tactic| exact stateRequestLine_own _)

theorem finalizeTx_own {old : List Event} {lo r : Nat} (e : Env) {i : Nat} (hi : i = r) : Keeps (OwnReq old lo r) Any (finalizeTx e i) := by
  unfold finalizeTx
  keeps_walk <;> own_leaf

macro_rules | `(tactic| keeps_known) => `(tactic| exact finalizeTx_own _ (OwnReq.request (by assumption)))

theorem completeRequest_own {old : List Event} {lo r : Nat} (e : Env) (t : Tx) : Keeps (OwnReq old lo r) Any (completeRequest e t) := by
  unfold completeRequest
  keeps_walk <;> own_leaf

macro_rules | `(tactic| keeps_known) => `(tactic| exact completeRequest_own _ _)

theorem requestConnectCheck_own {old : List Event} {lo r : Nat} (e : Env) : Keeps (OwnReq old lo r) Any (requestConnectCheck e) := by
  unfold requestConnectCheck
  keeps_walk <;> own_leaf

macro_rules | `(tactic| keeps_known) => `(tactic| exact requestConnectCheck_own _)

theorem requestConnectWaitResponse_own {old : List Event} {lo r : Nat} (e : Env) : Keeps (OwnReq old lo r) Any (requestConnectWaitResponse e) := by
  unfold requestConnectWaitResponse
  keeps_walk <;> own_leaf

macro_rules | `(tactic| keeps_known) => `(tactic| exact requestConnectWaitResponse_own _)

theorem requestBodyChunkedDataEnd_own {old : List Event} {lo r : Nat} (e : Env) : Keeps (OwnReq old lo r) Any (requestBodyChunkedDataEnd e) := by
  unfold requestBodyChunkedDataEnd
  keeps_walk <;> own_leaf

macro_rules | `(tactic| keeps_known) => `(tactic| exact requestBodyChunkedDataEnd_own _)

theorem requestBodyChunkedData_own {old : List Event} {lo r : Nat} (e : Env) : Keeps (OwnReq old lo r) Any (requestBodyChunkedData e) := by
  unfold requestBodyChunkedData
  keeps_walk <;> own_leaf

macro_rules | `(tactic| keeps_known) => `(tactic| exact requestBodyChunkedData_own _)

theorem requestChunkLine_own {old : List Event} {lo r : Nat} (e : Env) (l : Bytes) : Keeps (OwnReq old lo r) Any (requestChunkLine e l) := by
  unfold requestChunkLine
  keeps_walk <;> own_leaf

macro_rules | `(tactic| keeps_known) => `(tactic| exact requestChunkLine_own _ _)

theorem requestChunkedLengthLoop_own {old : List Event} {lo r : Nat} (e : Env) (d : Bytes) :
    Keeps (OwnReq old lo r) Any (requestChunkedLengthLoop e d) := by
  induction h : d.length using Nat.strongRecOn generalizing d with
  | ind n ih =>
    unfold requestChunkedLengthLoop
    split
    next remaining line hl =>
      have := takeTillIncl_shorter hl
      have ih := ih remaining.length (by omega) remaining rfl
      keeps_walk <;> own_leaf
    all_goals
      keeps_walk <;> own_leaf

macro_rules | `(tactic| keeps_known) => `(tactic| exact requestChunkedLengthLoop_own _ _)

theorem requestBodyChunkedLength_own {old : List Event} {lo r : Nat} (e : Env) : Keeps (OwnReq old lo r) Any (requestBodyChunkedLength e) := by
  unfold requestBodyChunkedLength
  keeps_walk <;> own_leaf

macro_rules | `(tactic| keeps_known) => `(tactic| exact requestBodyChunkedLength_own _)

theorem requestIdentityData_own {old : List Event} {lo r : Nat} (e : Env) (n : Nat) : Keeps (OwnReq old lo r) Any (requestIdentityData e n) := by
  unfold requestIdentityData
  keeps_walk <;> own_leaf

macro_rules | `(tactic| keeps_known) => `(tactic| exact requestIdentityData_own _ _)

theorem requestBodyIdentity_own {old : List Event} {lo r : Nat} (e : Env) : Keeps (OwnReq old lo r) Any (requestBodyIdentity e) := by
  unfold requestBodyIdentity
  keeps_walk <;> own_leaf

macro_rules | `(tactic| keeps_known) => `(tactic| exact requestBodyIdentity_own _)

theorem requestBodyDetermine_own {old : List Event} {lo r : Nat} (e : Env) : Keeps (OwnReq old lo r) Any (requestBodyDetermine e) := by
  unfold requestBodyDetermine
  keeps_walk <;> own_leaf

macro_rules | `(tactic| keeps_known) => `(tactic| exact requestBodyDetermine_own _)

theorem requestHeadersClosed_own {old : List Event} {lo r : Nat} (e : Env) : Keeps (OwnReq old lo r) Any (requestHeadersClosed e) := by
  unfold requestHeadersClosed
  keeps_walk <;> (first | own_leaf | (rename_i ht; exact index_of_tag ht (Tx.tag_parseRequestHeaders _ _)))

macro_rules | `(tactic| keeps_known) => `(tactic| exact requestHeadersClosed_own _)

theorem requestHeaders_own {old : List Event} {lo r : Nat} (e : Env) : Keeps (OwnReq old lo r) Any (requestHeaders e) := by
  unfold requestHeaders
  keeps_walk <;> (first | own_leaf | (rename_i ht; exact index_of_tag ht (Tx.tag_parseRequestHeaders _ _)))

macro_rules | `(tactic| keeps_known) => `(tactic| exact requestHeaders_own _)

theorem requestProtocol_own {old : List Event} {lo r : Nat} (e : Env) : Keeps (OwnReq old lo r) Any (requestProtocol e) := by
  unfold requestProtocol
  keeps_walk <;> own_leaf

macro_rules | `(tactic| keeps_known) => `(tactic| exact requestProtocol_own _)

theorem requestLineComplete_own {old : List Event} {lo r : Nat} (e : Env) (l : Bytes) : Keeps (OwnReq old lo r) Any (requestLineComplete e l) := by
  unfold requestLineComplete
  keeps_walk <;> (first | own_leaf | (rename_i ht _; exact index_of_tag ht (Tx.tag_readRequestLine _ _ _)))

macro_rules | `(tactic| keeps_known) => `(tactic| exact requestLineComplete_own _ _)

theorem requestLine_own {old : List Event} {lo r : Nat} (e : Env) : Keeps (OwnReq old lo r) Any (requestLine e) := by
  unfold requestLine
  keeps_walk <;> own_leaf

macro_rules | `(tactic| keeps_known) => `(tactic| exact requestLine_own _)

theorem requestIgnoreDataAfterHttp09_own {old : List Event} {lo r : Nat} : Keeps (OwnReq old lo r) Any (requestIgnoreDataAfterHttp09) := by
  unfold requestIgnoreDataAfterHttp09
  keeps_walk <;> own_leaf

macro_rules | `(tactic| keeps_known) => `(tactic| exact requestIgnoreDataAfterHttp09_own)

theorem requestReset_own {old : List Event} {lo r : Nat} : Keeps (OwnReq old lo r) Any (requestReset) := by
  unfold requestReset
  keeps_walk <;> own_leaf

macro_rules | `(tactic| keeps_known) => `(tactic| exact requestReset_own)

theorem requestIdle_own {old : List Event} {lo r : Nat} (e : Env) : Keeps (OwnReq old lo r) Any (requestIdle e) := by
  unfold requestIdle
  keeps_walk <;> own_leaf

macro_rules | `(tactic| keeps_known) => `(tactic| exact requestIdle_own _)

end Model

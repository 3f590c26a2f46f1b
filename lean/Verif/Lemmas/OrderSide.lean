/-
The request functions do not disturb the callbacks of the responses.
-/
import Verif.Lemmas.OrderRespStep

namespace Model

open M Spec

/-- What is known of the responses. -/
structure RespSide (s : Conn) : Prop where
  base : Base s
  replies : Replies s.trace s.begun

/-- The same, while `r` is the current request. -/
structure Aside (r : Nat) (s : Conn) : Prop where
  request : s.txs.request = r
  side : RespSide s

theorem Aside.stable {r : Nat} : ReqStable (Aside r) (fun t => t.index = r) where
  get h ht := (h.2.1.1 _ _ ht).trans h.1
  new h _ := h.1
  put {s t} h ht := by
    refine ⟨h.1, ⟨?_, h.2.1.2, h.2.1.3⟩, h.2.2⟩
    intro i u hu
    have hu' : (s.txs.set s.txs.request t).get i = some u := hu
    rw [Txs.get_set] at hu'
    split at hu'
    · next hi => cases hu'; rw [hi, h.1]; exact ht
    · exact h.2.1.1 i u hu'

macro_rules | `(tactic| keeps_stable) => `(tactic| exact Aside.stable)

theorem RespSide.emit {s : Conn} {ev : Event} (h : RespSide s) (h1 : ∀ i, ev ≠ .tx .responseStart i)
    (h2 : responseIndex ev = none) : RespSide { s with trace := s.trace ++ [ev] } :=
  ⟨⟨h.1.1, h.1.2, h.1.3⟩, h.2.other h1 (by simp [h2])⟩

theorem Aside.emit {r : Nat} {s : Conn} {ev : Event} (h : Aside r s) (h1 : ∀ i, ev ≠ .tx .responseStart i)
    (h2 : responseIndex ev = none) : Aside r { s with trace := s.trace ++ [ev] } := ⟨h.1, h.2.emit h1 h2⟩

/-- A change of the request side. -/
theorem Aside.setReq {r : Nat} {s : Conn} {h' : Half} (h : Aside r s)
    (hr : h'.receiver = s.req.receiver ∨ h'.receiver = none ∨ h'.receiver = some .requestHeaderData ∨
      h'.receiver = some .requestTrailerData) : Aside r { s with req := h' } := by
  refine ⟨h.1, ⟨h.2.1.1, h.2.1.2, ?_⟩, h.2.2⟩
  intro x (hx : h'.receiver = some x)
  rcases hr with hr | hr | hr | hr <;> rw [hr] at hx
  · exact h.2.1.3 x hx
  · cases hx
  · cases hx; exact .inl rfl
  · cases hx; exact .inr rfl

/-- Closes the goals `keeps_walk` leaves. -/
macro "side_leaf" : tactic => `(tactic|
  first
  | assumption
  | (rename_i ht; exact ht)
  | (refine Aside.setReq (by assumption) ?_; first | exact Or.inl rfl | (simp; done))
  | (refine Aside.emit (by assumption) ?_ rfl; simp; done)
  | (rename_i h; exact ⟨h.1, ⟨h.2.1.1, h.2.1.2, h.2.1.3⟩, h.2.2⟩))

theorem index_of_tag {t u : Tx} {r : Nat} (ht : t.index = r) (hu : u.tag = t.tag) : u.index = r := by
  simp only [Tx.tag, Prod.mk.injEq] at hu
  exact hu.1.trans ht

theorem requestConsume_aside {r : Nat} (n : Nat) : Keeps (Aside r) Any (requestConsume n) := by
  unfold requestConsume
  keeps_walk <;> side_leaf

macro_rules | `(tactic| keeps_known) => `(tactic| exact requestConsume_aside _)

theorem requestUnconsume_aside {r : Nat} (n : Nat) : Keeps (Aside r) Any (requestUnconsume n) := by
  unfold requestUnconsume
  keeps_walk <;> side_leaf

macro_rules | `(tactic| keeps_known) => `(tactic| exact requestUnconsume_aside _)

theorem requestReceiverSendData_aside {r : Nat} (e : Env) : Keeps (Aside r) Any (requestReceiverSendData e) := by
  unfold requestReceiverSendData
  refine Keeps.bind_state fun s1 h1 => ?_
  refine Keeps.bind (F := Any) (by keeps_walk; side_leaf) fun _ _ => ?_
  refine Keeps.bind (Keeps.requestTx Aside.stable) fun t ht => ?_
  cases hr : s1.req.receiver with
  | none => exact Keeps.pure
  | some x =>
    refine Keeps.emit fun s h => ?_
    rcases h1.2.1.3 x hr with rfl | rfl <;> exact h.emit (by simp) rfl

macro_rules | `(tactic| keeps_known) => `(tactic| exact requestReceiverSendData_aside _)

theorem requestReceiverFinalizeClear_aside {r : Nat} (e : Env) : Keeps (Aside r) Any (requestReceiverFinalizeClear e) := by
  unfold requestReceiverFinalizeClear
  keeps_walk <;> side_leaf

macro_rules | `(tactic| keeps_known) => `(tactic| exact requestReceiverFinalizeClear_aside _)

theorem requestSetReceiver_aside {r : Nat} (e : Env) : Keeps (Aside r) Any (requestSetReceiver e) := by
  unfold requestSetReceiver
  keeps_walk <;> side_leaf

macro_rules | `(tactic| keeps_known) => `(tactic| exact requestSetReceiver_aside _)

theorem requestHandleStateChange_aside {r : Nat} (e : Env) : Keeps (Aside r) Any (requestHandleStateChange e) := by
  unfold requestHandleStateChange
  keeps_walk <;> side_leaf

macro_rules | `(tactic| keeps_known) => `(tactic| exact requestHandleStateChange_aside _)

theorem handleRequestAbsentLf_aside {r : Nat} (e : Env) : Keeps (Aside r) Any (handleRequestAbsentLf e) := by
  unfold handleRequestAbsentLf
  keeps_walk <;> side_leaf

macro_rules | `(tactic| keeps_known) => `(tactic| exact handleRequestAbsentLf_aside _)

theorem requestRunHookBodyData_aside {r : Nat} (e : Env) (d : PData) : Keeps (Aside r) Any (requestRunHookBodyData e d) := by
  unfold requestRunHookBodyData
  keeps_walk <;> side_leaf

macro_rules | `(tactic| keeps_known) => `(tactic| exact requestRunHookBodyData_aside _ _)

theorem requestDecompressorCallback_aside {r : Nat} (e : Env) (o : Option Bytes) : Keeps (Aside r) Any (requestDecompressorCallback e o) := by
  unfold requestDecompressorCallback
  keeps_walk <;> side_leaf

macro_rules | `(tactic| keeps_known) => `(tactic| exact requestDecompressorCallback_aside _ _)

theorem requestDecompress_aside {r : Nat} (e : Env) (o : Option Bytes) : Keeps (Aside r) Any (requestDecompress e o) := by
  unfold requestDecompress
  keeps_walk <;> side_leaf

macro_rules | `(tactic| keeps_known) => `(tactic| exact requestDecompress_aside _ _)

theorem requestPlainBody_aside {r : Nat} (e : Env) (o : Option Bytes) : Keeps (Aside r) Any (requestPlainBody e o) := by
  unfold requestPlainBody
  keeps_walk <;> side_leaf

macro_rules | `(tactic| keeps_known) => `(tactic| exact requestPlainBody_aside _ _)

theorem requestBodyData_aside {r : Nat} (e : Env) (o : Option Bytes) : Keeps (Aside r) Any (requestBodyData e o) := by
  unfold requestBodyData
  keeps_walk <;> side_leaf

macro_rules | `(tactic| keeps_known) => `(tactic| exact requestBodyData_aside _ _)

theorem stateRequestStart_aside {r : Nat} (e : Env) : Keeps (Aside r) Any (stateRequestStart e) := by
  unfold stateRequestStart
  keeps_walk <;> side_leaf

macro_rules | `(tactic| keeps_known) => `(tactic| exact stateRequestStart_aside _)

theorem stateRequestTrailer_aside {r : Nat} (e : Env) : Keeps (Aside r) Any (stateRequestTrailer e) := by
  unfold stateRequestTrailer
  keeps_walk <;> side_leaf

macro_rules | `(tactic| keeps_known) => `(tactic| exact stateRequestTrailer_aside _)

theorem stateRequestHeadersDone_aside {r : Nat} (e : Env) : Keeps (Aside r) Any (stateRequestHeadersDone e) := by
  unfold stateRequestHeadersDone
  keeps_walk <;> (first | side_leaf | (rename_i ht; exact index_of_tag ht (Tx.tag_processRequestHeaders _ _)) | (rename_i ht; exact index_of_tag ht (Tx.tag_initRequestDecompressors _ _)))

macro_rules | `(tactic| keeps_known) => `(tactic| exact stateRequestHeadersDone_aside _)

theorem stateRequestHeaders_aside {r : Nat} (e : Env) : Keeps (Aside r) Any (stateRequestHeaders e) := by
  unfold stateRequestHeaders
  keeps_walk <;> side_leaf

macro_rules | `(tactic| keeps_known) => `(tactic| exact stateRequestHeaders_aside _)

theorem stateRequestLine_aside {r : Nat} (e : Env) : Keeps (Aside r) Any (stateRequestLine e) := by
  unfold stateRequestLine
  keeps_walk <;> (first | side_leaf | (rename_i ht; exact index_of_tag ht (Tx.tag_parseRequestLine _ _)) | (rename_i ht _ _ hu; exact index_of_tag ht (Tx.tag_storeNormalizedUri _ _ hu)))

macro_rules | `(tactic| keeps_known) => `(tactic| exact stateRequestLine_aside _)

theorem finalizeTx_aside {r : Nat} (e : Env) (i : Nat) : Keeps (Aside r) Any (finalizeTx e i) := by
  unfold finalizeTx
  keeps_walk <;> side_leaf

macro_rules | `(tactic| keeps_known) => `(tactic| exact finalizeTx_aside _ _)

theorem completeRequest_aside {r : Nat} (e : Env) (t : Tx) : Keeps (Aside r) Any (completeRequest e t) := by
  unfold completeRequest
  keeps_walk <;> side_leaf

macro_rules | `(tactic| keeps_known) => `(tactic| exact completeRequest_aside _ _)

theorem requestConnectCheck_aside {r : Nat} (e : Env) : Keeps (Aside r) Any (requestConnectCheck e) := by
  unfold requestConnectCheck
  keeps_walk <;> side_leaf

macro_rules | `(tactic| keeps_known) => `(tactic| exact requestConnectCheck_aside _)

theorem requestConnectWaitResponse_aside {r : Nat} (e : Env) : Keeps (Aside r) Any (requestConnectWaitResponse e) := by
  unfold requestConnectWaitResponse
  keeps_walk <;> side_leaf

macro_rules | `(tactic| keeps_known) => `(tactic| exact requestConnectWaitResponse_aside _)

theorem requestBodyChunkedDataEnd_aside {r : Nat} (e : Env) : Keeps (Aside r) Any (requestBodyChunkedDataEnd e) := by
  unfold requestBodyChunkedDataEnd
  keeps_walk <;> side_leaf

macro_rules | `(tactic| keeps_known) => `(tactic| exact requestBodyChunkedDataEnd_aside _)

theorem requestBodyChunkedData_aside {r : Nat} (e : Env) : Keeps (Aside r) Any (requestBodyChunkedData e) := by
  unfold requestBodyChunkedData
  keeps_walk <;> side_leaf

macro_rules | `(tactic| keeps_known) => `(tactic| exact requestBodyChunkedData_aside _)

theorem requestChunkLine_aside {r : Nat} (e : Env) (l : Bytes) : Keeps (Aside r) Any (requestChunkLine e l) := by
  unfold requestChunkLine
  keeps_walk <;> side_leaf

macro_rules | `(tactic| keeps_known) => `(tactic| exact requestChunkLine_aside _ _)

theorem requestChunkedLengthLoop_aside {r : Nat} (e : Env) (d : Bytes) :
    Keeps (Aside r) Any (requestChunkedLengthLoop e d) := by
  induction h : d.length using Nat.strongRecOn generalizing d with
  | ind n ih =>
    unfold requestChunkedLengthLoop
    split
    next remaining line hl =>
      have := takeTillIncl_shorter hl
      have ih := ih remaining.length (by omega) remaining rfl
      keeps_walk <;> side_leaf
    all_goals
      keeps_walk <;> side_leaf

macro_rules | `(tactic| keeps_known) => `(tactic| exact requestChunkedLengthLoop_aside _ _)

theorem requestBodyChunkedLength_aside {r : Nat} (e : Env) : Keeps (Aside r) Any (requestBodyChunkedLength e) := by
  unfold requestBodyChunkedLength
  keeps_walk <;> side_leaf

macro_rules | `(tactic| keeps_known) => `(tactic| exact requestBodyChunkedLength_aside _)

theorem requestIdentityData_aside {r : Nat} (e : Env) (n : Nat) : Keeps (Aside r) Any (requestIdentityData e n) := by
  unfold requestIdentityData
  keeps_walk <;> side_leaf

macro_rules | `(tactic| keeps_known) => `(tactic| exact requestIdentityData_aside _ _)

theorem requestBodyIdentity_aside {r : Nat} (e : Env) : Keeps (Aside r) Any (requestBodyIdentity e) := by
  unfold requestBodyIdentity
  keeps_walk <;> side_leaf

macro_rules | `(tactic| keeps_known) => `(tactic| exact requestBodyIdentity_aside _)

theorem requestBodyDetermine_aside {r : Nat} (e : Env) : Keeps (Aside r) Any (requestBodyDetermine e) := by
  unfold requestBodyDetermine
  keeps_walk <;> side_leaf

macro_rules | `(tactic| keeps_known) => `(tactic| exact requestBodyDetermine_aside _)

theorem requestHeadersClosed_aside {r : Nat} (e : Env) : Keeps (Aside r) Any (requestHeadersClosed e) := by
  unfold requestHeadersClosed
  keeps_walk <;> (first | side_leaf | (rename_i ht; exact index_of_tag ht (Tx.tag_parseRequestHeaders _ _)))

macro_rules | `(tactic| keeps_known) => `(tactic| exact requestHeadersClosed_aside _)

theorem requestHeaders_aside {r : Nat} (e : Env) : Keeps (Aside r) Any (requestHeaders e) := by
  unfold requestHeaders
  keeps_walk <;> (first | side_leaf | (rename_i ht; exact index_of_tag ht (Tx.tag_parseRequestHeaders _ _)))

macro_rules | `(tactic| keeps_known) => `(tactic| exact requestHeaders_aside _)

theorem requestProtocol_aside {r : Nat} (e : Env) : Keeps (Aside r) Any (requestProtocol e) := by
  unfold requestProtocol
  keeps_walk <;> side_leaf

macro_rules | `(tactic| keeps_known) => `(tactic| exact requestProtocol_aside _)

theorem requestLineComplete_aside {r : Nat} (e : Env) (l : Bytes) : Keeps (Aside r) Any (requestLineComplete e l) := by
  unfold requestLineComplete
  keeps_walk <;> (first | side_leaf | (rename_i ht _; exact index_of_tag ht (Tx.tag_readRequestLine _ _ _)))

macro_rules | `(tactic| keeps_known) => `(tactic| exact requestLineComplete_aside _ _)

theorem requestLine_aside {r : Nat} (e : Env) : Keeps (Aside r) Any (requestLine e) := by
  unfold requestLine
  keeps_walk <;> side_leaf

macro_rules | `(tactic| keeps_known) => `(tactic| exact requestLine_aside _)

theorem requestIgnoreDataAfterHttp09_aside {r : Nat} : Keeps (Aside r) Any (requestIgnoreDataAfterHttp09) := by
  unfold requestIgnoreDataAfterHttp09
  keeps_walk <;> side_leaf

macro_rules | `(tactic| keeps_known) => `(tactic| exact requestIgnoreDataAfterHttp09_aside)

theorem requestReset_aside {r : Nat} : Keeps (Aside r) Any (requestReset) := by
  unfold requestReset
  keeps_walk <;> side_leaf

macro_rules | `(tactic| keeps_known) => `(tactic| exact requestReset_aside)

theorem requestIdle_aside {r : Nat} (e : Env) : Keeps (Aside r) Any (requestIdle e) := by
  unfold requestIdle
  keeps_walk <;> side_leaf

macro_rules | `(tactic| keeps_known) => `(tactic| exact requestIdle_aside _)

/-- The next request: the responses are not disturbed. -/
theorem requestNext_side (e : Env) {r : Nat} : Leads (Aside r) RespSide (requestNext e) := by
  intro s h
  have hresp : (requestNext e s).2.txs.response = s.txs.response := by
    show (Txs.checkFree e.cfg.txAutoDestroy s.txs s.txs.request).response = _
    rw [(checkFree_response ..).1]
  refine ⟨⟨fun i u hu => h.2.1.1 i u (get_checkFree hu), h.2.1.2, h.2.1.3⟩, ?_⟩
  unfold Conn.begun
  rw [hresp]
  exact h.2.2

theorem Aside.toSide {r : Nat} {s : Conn} (h : Aside r s) : RespSide s := h.2

theorem stateRequestComplete_side (e : Env) {r : Nat} : Leads (Aside r) RespSide (stateRequestComplete e) := by
  unfold stateRequestComplete
  refine Leads.bind (fun _ => Aside.toSide) (Keeps.requestTx Aside.stable) fun t ht => ?_
  refine Leads.bind (F := Any) (fun _ => Aside.toSide) (by keeps_walk) fun _ _ => ?_
  refine Leads.bind (fun _ => Aside.toSide) (Keeps.requestTx Aside.stable) fun t ht => ?_
  refine Leads.bind (F := Any) (fun _ => Aside.toSide) (Keeps.setReq fun s h => h.setReq (.inl rfl)) fun _ _ => ?_
  refine Leads.bind_state fun s1 h1 => ?_
  refine Leads.bind (F := Any) (fun _ => Aside.toSide) (by keeps_walk) fun _ _ => ?_
  exact requestNext_side e

theorem requestConnectProbeData_side (e : Env) {r : Nat} : Leads (Aside r) RespSide (requestConnectProbeData e) := by
  unfold requestConnectProbeData
  refine Leads.bind_state fun s1 h1 => ?_
  split
  · refine Leads.bind (F := Any) (fun _ => Aside.toSide) (by keeps_walk) fun _ _ => ?_
    refine Leads.ite (fun _ => ?_) fun _ => stateRequestComplete_side e
    intro s h
    exact ⟨⟨h.2.1.1, h.2.1.2, h.2.1.3⟩, h.2.2⟩
  · exact Leads.of (F := Any) (fun _ => Aside.toSide) (by keeps_walk)

theorem requestFinalizeLine_side (e : Env) {r : Nat} (w : Bytes) : Leads (Aside r) RespSide (requestFinalizeLine e w) := by
  unfold requestFinalizeLine
  refine Leads.bind_state fun s1 h1 => ?_
  refine Leads.bind (F := Any) (fun _ => Aside.toSide) (by keeps_walk) fun _ _ => ?_
  refine Leads.bind (F := Any) (fun _ => Aside.toSide) (by keeps_walk; side_leaf) fun _ _ => ?_
  refine Leads.ite (fun _ => stateRequestComplete_side e) fun _ => ?_
  refine Leads.ite (fun _ => ?_) fun _ => ?_
  · exact Leads.of (F := Any) (fun _ => Aside.toSide) (by keeps_walk)
  · refine Leads.ite (fun _ => ?_) fun _ => ?_
    · refine Leads.of (F := Any) (fun _ => Aside.toSide) ?_
      keeps_walk
      side_leaf
    · refine Leads.bind (F := Any) (fun _ => Aside.toSide) (by keeps_walk; side_leaf) fun _ _ => ?_
      refine Leads.bind (F := Any) (fun _ => Aside.toSide) (by keeps_walk) fun _ _ => ?_
      exact stateRequestComplete_side e

theorem requestFinalize_side (e : Env) {r : Nat} : Leads (Aside r) RespSide (requestFinalize e) := by
  unfold requestFinalize
  refine Leads.bind_state fun s1 h1 => ?_
  refine Leads.ite (fun _ => stateRequestComplete_side e) fun _ => ?_
  refine Leads.ite (fun _ => requestFinalizeLine_side e _) fun _ => ?_
  refine Leads.ite (fun _ => stateRequestComplete_side e) fun _ => ?_
  split
  · refine Leads.bind (F := Any) (fun _ => Aside.toSide) (by keeps_walk) fun _ _ => ?_
    exact requestFinalizeLine_side e _
  · exact Leads.of (F := Any) (fun _ => Aside.toSide) (by keeps_walk)

/-- What is known of the responses stays so. -/
def SideStep (s s' : Conn) : Prop := RespSide s → RespSide s'

theorem SideStep.pre : Pre SideStep := ⟨fun _ h => h, fun h1 h2 h => h2 (h1 h)⟩

theorem Keeps.sideStep {α : Type} {F : α → Prop} {m : M α} (h : ∀ r, Keeps (Aside r) F m) : Rel SideStep m :=
  fun s hs => (h s.txs.request s ⟨rfl, hs⟩).1.2

theorem Leads.sideStep {α : Type} {m : M α} (h : ∀ r, Leads (Aside r) RespSide m) : Rel SideStep m :=
  fun s hs => h s.txs.request s ⟨rfl, hs⟩

theorem handleRequestState_side (e : Env) : Rel SideStep (handleRequestState e) := by
  unfold handleRequestState
  refine Rel.bind SideStep.pre (Rel.state SideStep.pre) fun s => ?_
  cases s.req.state with
  | finalize => exact Leads.sideStep fun r => requestFinalize_side e
  | connectProbeData => exact Leads.sideStep fun r => requestConnectProbeData_side e
  | _ => exact Keeps.sideStep (F := Any) fun r => by keeps_walk

theorem requestAfterStep_aside {r : Nat} (e : Env) (rc : Except Status Unit) : Keeps (Aside r) Any (requestAfterStep e rc) := by
  unfold requestAfterStep requestReturn
  keeps_walk <;> side_leaf

theorem requestStep_side (e : Env) : Rel SideStep (requestStep e) := by
  unfold requestStep
  refine Rel.bind SideStep.pre (Rel.state SideStep.pre) fun s => ?_
  refine Rel.ite (Rel.pure SideStep.pre) ?_
  refine Rel.bind SideStep.pre (Rel.attempt (handleRequestState_side e)) fun rc => ?_
  unfold requestStepTail
  refine Rel.bind SideStep.pre (Rel.state SideStep.pre) fun s => ?_
  cases rc with
  | ok _ =>
    refine Rel.ite (Rel.pure SideStep.pre) ?_
    exact Rel.bind SideStep.pre (Rel.attempt (Keeps.sideStep (F := Any) fun r => requestHandleStateChange_aside e))
      fun rc => Keeps.sideStep (F := Any) fun r => requestAfterStep_aside e rc
  | error st => exact Keeps.sideStep (F := Any) fun r => requestAfterStep_aside e _

theorem requestLoop_side (e : Env) (n : Nat) : Rel SideStep (requestLoop e n) := by
  induction n with
  | zero => exact Rel.pure SideStep.pre
  | succ n ih =>
    unfold requestLoop
    refine Rel.bind SideStep.pre (requestStep_side e) fun r => ?_
    cases r with
    | some st => exact Rel.pure SideStep.pre
    | none => exact ih

theorem requestNoteGap_side (e : Env) : Rel SideStep (requestNoteGap e) := by
  refine Keeps.sideStep (F := Any) fun r => ?_
  unfold requestNoteGap requestReturn
  refine Keeps.bind (Keeps.attempt_result (Keeps.requestTx Aside.stable)) fun t ht => ?_
  cases t with
  | error x => exact Keeps.pure
  | ok t =>
    have ht : t.index = r := ht t rfl
    keeps_walk
    · exact ht
    · side_leaf
    · exact ht

theorem requestData_side (e : Env) (c : PData) : Rel SideStep (requestData e c) := by
  unfold requestData
  refine Rel.bind SideStep.pre (Keeps.sideStep (F := Any) fun s0 => by keeps_walk; side_leaf) fun _ => ?_
  refine Rel.bind SideStep.pre (Rel.state SideStep.pre) fun s => ?_
  refine Rel.ite (Rel.pure SideStep.pre) (Rel.ite (Rel.pure SideStep.pre) (Rel.ite (Rel.pure SideStep.pre) ?_))
  refine Rel.bind SideStep.pre (Keeps.sideStep (F := Any) fun s0 => by keeps_walk; side_leaf) fun _ => ?_
  refine Rel.ite (Rel.pure SideStep.pre) ?_
  unfold requestProcess requestEarly
  refine Rel.bind SideStep.pre ?_ fun _ => ?_
  · intro s hs
    refine ⟨⟨hs.1.1, ?_, hs.1.3⟩, ?_⟩
    · intro x hx
      refine hs.1.2 x (Eq.trans ?_ hx)
      show s.resp.receiver = (if s.resp.status = .dataOther then { s.resp with status := .data } else s.resp).receiver
      split <;> rfl
    · have : (if s.resp.status = .dataOther then { s.resp with status := .data } else s.resp).state = s.resp.state := by
        split <;> rfl
      show Replies s.trace (if (if s.resp.status = .dataOther then { s.resp with status := .data } else s.resp).state
        = .idle then s.txs.response else s.txs.response + 1)
      rw [this]
      exact hs.2
  refine Rel.bind SideStep.pre (Rel.state SideStep.pre) fun s => ?_
  refine Rel.bind SideStep.pre ?_ fun x => ?_
  · refine Rel.bind SideStep.pre (Rel.state SideStep.pre) fun s => ?_
    exact Rel.ite (requestNoteGap_side e) (Rel.pure SideStep.pre)
  · cases x with
    | some st => exact Rel.pure SideStep.pre
    | none => exact requestLoop_side e _

end Model

/-
What the response functions leave of the order of the callbacks.
-/
import Verif.Lemmas.OrderStep

namespace Model

open M Spec

/-- The progress of a stored request, before the response function ran. -/
def was (s0 : Conn) (i : Nat) : Progress := ((s0.txs.get i).map (·.requestProgress)).getD .notStarted

/-- The new events of a response function on the transaction `k`; none of them is a response callback when
there is no current response. -/
def Quiet (k : Nat) (idle : Prop) (evs : List Event) : Prop :=
  ∀ ev ∈ evs, requestStage ev = none ∧ (∀ i, ev ≠ .tx .responseStart i) ∧
    ∀ i, responseIndex ev = some i → i = k ∧ ¬idle

/-- The receivers of raw response data. -/
def RawOnly (s : Conn) : Prop :=
  ∀ h, s.resp.receiver = some h → h = .responseHeaderData ∨ h = .responseTrailerData

/-- What the response functions leave alone, the beginning and the end of a response aside. -/
structure Kept (s0 s : Conn) : Prop where
  request : s.txs.request = s0.txs.request
  response : s.txs.response = s0.txs.response
  index : ∀ i t, s.txs.get i = some t → t.index = i
  has : ∀ i, s0.txs.get i ≠ none → s.txs.get i ≠ none
  prog : ∀ i t, s.txs.get i = some t → t.requestProgress = was s0 i
  recv : s.req.receiver = s0.req.receiver
  cl : s.req.contentLength = s0.req.contentLength
  state : s.req.state = s0.req.state ∨ s.req.state = .finalize ∧ s0.req.contentLength.getD 0 > 0
  idle : s.resp.state = .idle ↔ s0.resp.state = .idle
  raw : RawOnly s
  events : ∃ evs, s.trace = s0.trace ++ evs ∧ Quiet s0.txs.response (s0.resp.state = .idle) evs

/-- What is known of the current response transaction. -/
def RespWas (s0 : Conn) (t : Tx) : Prop := t.index = s0.txs.response ∧ t.requestProgress = was s0 s0.txs.response

theorem RespWas.of_tag {s0 : Conn} {t u : Tx} (h : RespWas s0 t) (hu : u.tag = t.tag) : RespWas s0 u := by
  simp only [Tx.tag, Prod.mk.injEq] at hu
  exact ⟨hu.1.trans h.1, hu.2.1.trans h.2⟩

theorem Kept.refl {s : Conn} (h : ∀ i t, s.txs.get i = some t → t.index = i) (hr : RawOnly s) : Kept s s := by
  refine ⟨rfl, rfl, h, fun _ h => h, ?_, rfl, rfl, .inl rfl, Iff.rfl, hr, [], by simp, by simp [Quiet]⟩
  intro i t ht
  unfold was
  rw [ht]
  rfl

theorem Kept.put {s0 s : Conn} {t : Tx} (h : Kept s0 s) (ht : RespWas s0 t) :
    Kept s0 { s with txs := s.txs.set s.txs.response t } := by
  have hget : ∀ i, (s.txs.set s.txs.response t).get i =
      if i = s.txs.response then some t else s.txs.get i := fun i => Txs.get_set ..
  refine ⟨h.1, h.2, ?_, ?_, ?_, h.6, h.7, h.8, h.9, h.10, h.11⟩
  · intro i u hu
    have hu' : (s.txs.set s.txs.response t).get i = some u := hu
    rw [hget] at hu'
    split at hu'
    · next hi => cases hu'; rw [hi, h.2]; exact ht.1
    · exact h.3 i u hu'
  · intro i hi
    show (s.txs.set s.txs.response t).get i ≠ none
    rw [hget]
    split
    · simp
    · exact h.4 i hi
  · intro i u hu
    have hu' : (s.txs.set s.txs.response t).get i = some u := hu
    rw [hget] at hu'
    split at hu'
    · next hi => cases hu'; rw [hi, h.2]; exact ht.2
    · exact h.5 i u hu'

theorem Kept.stable {s0 : Conn} : RespStable (Kept s0) (RespWas s0) where
  get h ht := ⟨(h.3 _ _ ht).trans h.2, by rw [h.5 _ _ ht, h.2]⟩
  new h hn := by
    refine ⟨h.2, ?_⟩
    unfold was
    cases hg : s0.txs.get s0.txs.response with
    | none => rfl
    | some t =>
      rw [h.2] at hn
      exact absurd hn (h.4 _ (by rw [hg]; simp))
  put h ht := h.put ht

macro_rules | `(tactic| keeps_stable) => `(tactic| exact Kept.stable)

theorem Kept.emit {s0 s : Conn} {ev : Event} (h : Kept s0 s) (h1 : requestStage ev = none)
    (h2 : ∀ i, ev ≠ .tx .responseStart i)
    (h3 : ∀ i, responseIndex ev = some i → i = s0.txs.response ∧ ¬s0.resp.state = .idle) :
    Kept s0 { s with trace := s.trace ++ [ev] } := by
  refine ⟨h.1, h.2, h.3, h.4, h.5, h.6, h.7, h.8, h.9, h.10, ?_⟩
  obtain ⟨evs, he, hq⟩ := h.11
  refine ⟨evs ++ [ev], by show s.trace ++ [ev] = _; rw [he, List.append_assoc], ?_⟩
  intro ev' hev'
  rcases List.mem_append.1 hev' with h' | h'
  · exact hq ev' h'
  · cases List.mem_singleton.1 h'
    exact ⟨h1, h2, h3⟩

/-- A change of the response side that neither begins nor ends a response. -/
theorem Kept.setResp {s0 s : Conn} {h' : Half} (h : Kept s0 s)
    (hs : h'.state = s.resp.state ∨ h'.state ≠ .idle ∧ s0.resp.state ≠ .idle)
    (hr : h'.receiver = s.resp.receiver ∨ h'.receiver = none ∨ h'.receiver = some .responseHeaderData ∨
      h'.receiver = some .responseTrailerData) : Kept s0 { s with resp := h' } := by
  refine ⟨h.1, h.2, h.3, h.4, h.5, h.6, h.7, h.8, ?_, ?_, h.11⟩
  · show h'.state = .idle ↔ _
    rcases hs with hs | hs
    · rw [hs]; exact h.9
    · exact ⟨fun h => absurd h hs.1, fun h => absurd h hs.2⟩
  · intro x (hx : h'.receiver = some x)
    rcases hr with hr | hr | hr | hr <;> rw [hr] at hx
    · exact h.10 x hx
    · cases hx
    · cases hx; exact .inl rfl
    · cases hx; exact .inr rfl

/-- A change of the request side that matters not. -/
theorem Kept.setReq {s0 s : Conn} {h' : Half} (h : Kept s0 s) (hr : h'.receiver = s.req.receiver)
    (hc : h'.contentLength = s.req.contentLength)
    (hs : h'.state = s.req.state ∨ h'.state = .finalize ∧ s0.req.contentLength.getD 0 > 0) :
    Kept s0 { s with req := h' } := by
  refine ⟨h.1, h.2, h.3, h.4, h.5, hr.trans h.6, hc.trans h.7, ?_, h.9, h.10, h.11⟩
  show h'.state = _ ∨ h'.state = _ ∧ _
  rcases hs with hs | hs
  · rw [hs]; exact h.8
  · exact .inr hs

/-- Closes the goals `keeps_walk` leaves. -/
macro "kept_leaf" : tactic => `(tactic|
  first
  | assumption
  | (rename_i ht; exact ⟨ht.1, ht.2⟩)
  | (refine RespWas.of_tag ?_ ?_; assumption; rfl)
  | (refine Kept.setResp (by assumption) ?_ ?_ <;>
      first | exact Or.inl rfl | exact Or.inr ⟨by simp, by assumption⟩ | (simp; done))
  | (rename_i h; exact ⟨h.1, h.2, h.3, h.4, h.5, h.6, h.7, h.8, h.9, h.10, h.11⟩))

theorem responseConsume_quiet {s0 : Conn} {n : Nat} : Keeps (Kept s0) Any (responseConsume n) :=
  Keeps.modify fun _ h => ⟨h.1, h.2, h.3, h.4, h.5, h.6, h.7, h.8, h.9, h.10, h.11⟩
theorem responseUnconsume_quiet {s0 : Conn} {n : Nat} : Keeps (Kept s0) Any (responseUnconsume n) :=
  Keeps.modify fun _ h => ⟨h.1, h.2, h.3, h.4, h.5, h.6, h.7, h.8, h.9, h.10, h.11⟩

macro_rules | `(tactic| keeps_known) => `(tactic| exact responseConsume_quiet)
macro_rules | `(tactic| keeps_known) => `(tactic| exact responseUnconsume_quiet)

theorem responseReceiverSendData_quiet {s0 : Conn} (e : Env) :
    Keeps (Kept s0) Any (responseReceiverSendData e) := by
  unfold responseReceiverSendData
  refine Keeps.bind_state fun s1 h1 => ?_
  refine Keeps.bind (F := Any) (by keeps_walk; kept_leaf) fun _ _ => ?_
  refine Keeps.bind (Keeps.responseTx Kept.stable) fun t ht => ?_
  cases hr : s1.resp.receiver with
  | none => exact Keeps.pure
  | some x =>
    refine Keeps.emit fun s h => ?_
    rcases h1.raw x hr with rfl | rfl <;> refine h.emit rfl (by simp) ?_ <;> intro i hi <;> cases hi

macro_rules | `(tactic| keeps_known) => `(tactic| exact responseReceiverSendData_quiet _)

theorem responseReceiverFinalizeClear_quiet {s0 : Conn} (e : Env) :
    Keeps (Kept s0) Any (responseReceiverFinalizeClear e) := by
  unfold responseReceiverFinalizeClear
  keeps_walk
  kept_leaf

macro_rules | `(tactic| keeps_known) => `(tactic| exact responseReceiverFinalizeClear_quiet _)

theorem responseHandleStateChange_quiet {s0 : Conn} (e : Env) :
    Keeps (Kept s0) Any (responseHandleStateChange e) := by
  unfold responseHandleStateChange responseSetReceiver
  keeps_walk <;> kept_leaf

theorem handleResponseAbsentLf_quiet {s0 : Conn} (e : Env) :
    Keeps (Kept s0) Any (handleResponseAbsentLf e) := by
  unfold handleResponseAbsentLf
  keeps_walk <;> kept_leaf

macro_rules | `(tactic| keeps_known) => `(tactic| exact handleResponseAbsentLf_quiet _)

/-- A response callback for the current response. -/
theorem Kept.emitResp {s0 s : Conn} {ev : Event} {i : Nat} (h : Kept s0 s) (hne : s0.resp.state ≠ .idle)
    (hi : i = s0.txs.response)
    (h1 : requestStage ev = none) (h2 : ∀ i, ev ≠ .tx .responseStart i) (h3 : responseIndex ev = some i) :
    Kept s0 { s with trace := s.trace ++ [ev] } := by
  refine h.emit h1 h2 ?_
  intro j hj
  rw [h3] at hj
  cases hj
  exact ⟨hi, hne⟩

theorem responseRunHookBodyData_quiet {s0 : Conn} (hne : s0.resp.state ≠ .idle) (e : Env) (d : PData) :
    Keeps (Kept s0) Any (responseRunHookBodyData e d) := by
  unfold responseRunHookBodyData
  refine Keeps.ite (fun _ => Keeps.pure) fun _ => ?_
  refine Keeps.bind (Keeps.responseTx Kept.stable) fun t ht => ?_
  refine Keeps.bind_state fun s1 h1 => ?_
  refine Keeps.bind (F := Any) (Keeps.emit fun s h => ?_) fun _ _ => Keeps.emit fun s h => ?_
  · exact h.emitResp (i := s1.txs.response) hne h1.2 rfl (by simp) rfl
  · exact h.emitResp (i := s1.txs.response) hne h1.2 rfl (by simp) rfl

macro_rules | `(tactic| keeps_known) => `(tactic| exact responseRunHookBodyData_quiet (by assumption) _ _)

theorem responseDecompressorCallback_quiet {s0 : Conn} (hne : s0.resp.state ≠ .idle) (e : Env) (o : Option Bytes) :
    Keeps (Kept s0) Any (responseDecompressorCallback e o) := by
  unfold responseDecompressorCallback
  keeps_walk
  kept_leaf

macro_rules | `(tactic| keeps_known) => `(tactic| exact responseDecompressorCallback_quiet (by assumption) _ _)

theorem responseDecompress_quiet {s0 : Conn} (hne : s0.resp.state ≠ .idle) (e : Env) (o : Option Bytes) :
    Keeps (Kept s0) Any (responseDecompress e o) := by
  unfold responseDecompress
  keeps_walk <;> kept_leaf

theorem responsePlainBody_quiet {s0 : Conn} (hne : s0.resp.state ≠ .idle) (e : Env) (o : Option Bytes) :
    Keeps (Kept s0) Any (responsePlainBody e o) := by
  unfold responsePlainBody
  keeps_walk <;> kept_leaf

macro_rules | `(tactic| keeps_known) => `(tactic| exact responseDecompress_quiet (by assumption) _ _)
macro_rules | `(tactic| keeps_known) => `(tactic| exact responsePlainBody_quiet (by assumption) _ _)

theorem responseBodyData_quiet {s0 : Conn} (hne : s0.resp.state ≠ .idle) (e : Env) (o : Option Bytes) :
    Keeps (Kept s0) Any (responseBodyData e o) := by
  unfold responseBodyData
  keeps_walk <;> kept_leaf

macro_rules | `(tactic| keeps_known) => `(tactic| exact responseBodyData_quiet (by assumption) _ _)

theorem responseBodyChunkedDataEnd_quiet {s0 : Conn} (hne : s0.resp.state ≠ .idle) (e : Env) :
    Keeps (Kept s0) Any (responseBodyChunkedDataEnd e) := by
  unfold responseBodyChunkedDataEnd
  keeps_walk <;> kept_leaf

theorem responseBodyChunkedData_quiet {s0 : Conn} (hne : s0.resp.state ≠ .idle) (e : Env) :
    Keeps (Kept s0) Any (responseBodyChunkedData e) := by
  unfold responseBodyChunkedData
  keeps_walk <;> kept_leaf

theorem responseChunkLine_quiet {s0 : Conn} (hne : s0.resp.state ≠ .idle) (e : Env) (line : Bytes) :
    Keeps (Kept s0) Any (responseChunkLine e line) := by
  unfold responseChunkLine
  keeps_walk <;> kept_leaf

macro_rules | `(tactic| keeps_known) => `(tactic| exact responseChunkLine_quiet (by assumption) _ _)

theorem responseChunkedLengthLoop_quiet {s0 : Conn} (hne : s0.resp.state ≠ .idle) (e : Env) (d : Bytes) :
    Keeps (Kept s0) Any (responseChunkedLengthLoop e d) := by
  induction h : d.length using Nat.strongRecOn generalizing d with
  | ind n ih =>
    unfold responseChunkedLengthLoop
    refine Keeps.bind (Keeps.responseTx Kept.stable) fun t ht => ?_
    split
    next remaining line hl =>
      have := takeTillIncl_shorter hl
      have ih := ih remaining.length (by omega) remaining rfl
      keeps_walk <;> kept_leaf
    all_goals
      keeps_walk <;> kept_leaf

theorem responseBodyChunkedLength_quiet {s0 : Conn} (hne : s0.resp.state ≠ .idle) (e : Env) :
    Keeps (Kept s0) Any (responseBodyChunkedLength e) := by
  unfold responseBodyChunkedLength
  exact Keeps.bind_state fun s1 _ => responseChunkedLengthLoop_quiet hne e _

theorem responseIdentityData_quiet {s0 : Conn} (hne : s0.resp.state ≠ .idle) (e : Env) (n : Nat) :
    Keeps (Kept s0) Any (responseIdentityData e n) := by
  unfold responseIdentityData
  keeps_walk <;> kept_leaf

macro_rules | `(tactic| keeps_known) => `(tactic| exact responseIdentityData_quiet (by assumption) _ _)

theorem responseIdentityOpen_quiet {s0 : Conn} (hne : s0.resp.state ≠ .idle) (e : Env) :
    Keeps (Kept s0) Any (responseIdentityOpen e) := by
  unfold responseIdentityOpen
  keeps_walk <;> kept_leaf

macro_rules | `(tactic| keeps_known) => `(tactic| exact responseIdentityOpen_quiet (by assumption) _)

theorem responseBodyIdentityClKnown_quiet {s0 : Conn} (hne : s0.resp.state ≠ .idle) (e : Env) :
    Keeps (Kept s0) Any (responseBodyIdentityClKnown e) := by
  unfold responseBodyIdentityClKnown
  keeps_walk <;> kept_leaf

theorem responseStreamData_quiet {s0 : Conn} (hne : s0.resp.state ≠ .idle) (e : Env) :
    Keeps (Kept s0) Any (responseStreamData e) := by
  unfold responseStreamData
  keeps_walk <;> kept_leaf

macro_rules | `(tactic| keeps_known) => `(tactic| exact responseStreamData_quiet (by assumption) _)

theorem responseBodyIdentityStreamClose_quiet {s0 : Conn} (hne : s0.resp.state ≠ .idle) (e : Env) :
    Keeps (Kept s0) Any (responseBodyIdentityStreamClose e) := by
  unfold responseBodyIdentityStreamClose
  keeps_walk <;> kept_leaf

/-- A response callback by its index. -/
macro "emit_leaf" : tactic => `(tactic|
  first
  | kept_leaf
  | (refine Kept.emitResp (i := _) (by assumption) (by assumption) (Kept.response (by assumption)) rfl ?_ rfl; simp; done))

theorem stateResponseHeaders_quiet {s0 : Conn} (hne : s0.resp.state ≠ .idle) (e : Env) :
    Keeps (Kept s0) Any (stateResponseHeaders e) := by
  unfold stateResponseHeaders
  keeps_walk
  · rename_i s1 h1 s h
    exact h.emitResp (i := s1.txs.response) hne h1.2 rfl (by simp) rfl
  · rename_i ht
    exact ht.of_tag (Tx.tag_initResponseDecompressors _ _)

macro_rules | `(tactic| keeps_known) => `(tactic| exact stateResponseHeaders_quiet (by assumption) _)

theorem stateResponseLine_quiet {s0 : Conn} (hne : s0.resp.state ≠ .idle) (e : Env) :
    Keeps (Kept s0) Any (stateResponseLine e) := by
  unfold stateResponseLine
  keeps_walk
  · rename_i ht
    exact ht.of_tag (Tx.tag_validateResponseLine _)
  · rename_i t ht _ _ s h
    exact h.emitResp (i := t.index) hne ht.1 rfl (by simp) rfl

macro_rules | `(tactic| keeps_known) => `(tactic| exact stateResponseLine_quiet (by assumption) _)

theorem completeResponse_quiet {s0 : Conn} (hne : s0.resp.state ≠ .idle) (e : Env) (t : Tx) (ht : RespWas s0 t) :
    Keeps (Kept s0) Any (completeResponse e t) := by
  unfold completeResponse
  keeps_walk
  · exact ⟨ht.1, ht.2⟩
  · rename_i s1 h1 s h
    exact h.emitResp (i := s1.txs.response) hne h1.2 rfl (by simp) rfl

theorem requestParserCheckWaiting_quiet {s0 : Conn} : Keeps (Kept s0) Any requestParserCheckWaiting := by
  unfold requestParserCheckWaiting
  keeps_walk
  kept_leaf

theorem finalizeTx_quiet {s0 : Conn} (e : Env) (i : Nat) : Keeps (Kept s0) Any (finalizeTx e i) := by
  unfold finalizeTx
  keeps_walk
  rename_i h
  exact h.emit rfl (by simp) (by simp [responseIndex])

theorem unblockRequest_quiet {s0 : Conn} : Keeps (Kept s0) Any unblockRequest := by
  unfold unblockRequest
  exact Keeps.setReq fun s h => h.setReq rfl rfl (.inl rfl)

macro_rules | `(tactic| keeps_known) => `(tactic| exact unblockRequest_quiet)

theorem responseSwitch_quiet {s0 : Conn} (hne : s0.resp.state ≠ .idle) : Keeps (Kept s0) Any responseSwitch := by
  unfold responseSwitch
  keeps_walk
  · rename_i s h _
    exact Kept.setResp (s := s) h (.inr ⟨by simp, hne⟩) (.inl rfl)
  · rename_i s h _
    exact Kept.setResp (s := { s with req := { s.req with status := .tunnel } })
      (h.setReq rfl rfl (.inl rfl)) (.inr ⟨by simp, hne⟩) (.inl rfl)

macro_rules | `(tactic| keeps_known) => `(tactic| exact responseSwitch_quiet (by assumption))

theorem responseConnect_quiet {s0 : Conn} (hne : s0.resp.state ≠ .idle) (e : Env) :
    Keeps (Kept s0) Any (responseConnect e) := by
  unfold responseConnect
  keeps_walk <;> kept_leaf

macro_rules | `(tactic| keeps_known) => `(tactic| exact responseConnect_quiet (by assumption) _)

theorem responseContinue_quiet {s0 : Conn} (hne : s0.resp.state ≠ .idle) (e : Env) :
    Keeps (Kept s0) Any (responseContinue e) := by
  unfold responseContinue
  keeps_walk <;> kept_leaf

macro_rules | `(tactic| keeps_known) => `(tactic| exact responseContinue_quiet (by assumption) _)

theorem responseExpect_quiet {s0 : Conn} (e : Env) : Keeps (Kept s0) Any (responseExpect e) := by
  unfold responseExpect
  refine Keeps.bind_state fun s1 h1 => ?_
  refine Keeps.bind (Keeps.responseTx Kept.stable) fun t ht => ?_
  refine Keeps.when fun hw => ?_
  keeps_walk
  rename_i h
  refine h.setReq rfl rfl (.inr ⟨rfl, ?_⟩)
  simp only [Bool.and_eq_true, decide_eq_true_eq] at hw
  rw [← h1.cl]
  exact hw.1.2

macro_rules | `(tactic| keeps_known) => `(tactic| exact responseExpect_quiet _)

theorem responseInterim_quiet {s0 : Conn} (hne : s0.resp.state ≠ .idle) (e : Env) (te cl : Option Header) :
    Keeps (Kept s0) Any (responseInterim e te cl) := by
  unfold responseInterim
  keeps_walk <;> kept_leaf

macro_rules | `(tactic| keeps_known) => `(tactic| exact responseInterim_quiet (by assumption) _ _ _)

theorem responseNoBody_quiet {s0 : Conn} (hne : s0.resp.state ≠ .idle) (e : Env) (te cl : Option Header) :
    Keeps (Kept s0) Any (responseNoBody e te cl) := by
  unfold responseNoBody
  keeps_walk <;> kept_leaf

macro_rules | `(tactic| keeps_known) => `(tactic| exact responseNoBody_quiet (by assumption) _ _ _)

theorem responseChunked_quiet {s0 : Conn} (hne : s0.resp.state ≠ .idle) (e : Env) (cl : Option Header) :
    Keeps (Kept s0) Any (responseChunked e cl) := by
  unfold responseChunked
  refine Keeps.bind (F := Any) (Keeps.modifyResponse Kept.stable fun t ht => ?_) fun _ _ => ?_
  · cases cl <;> exact ⟨ht.1, ht.2⟩
  · keeps_walk
    kept_leaf

theorem responseLength_quiet {s0 : Conn} (hne : s0.resp.state ≠ .idle) (e : Env) (cl : Header) :
    Keeps (Kept s0) Any (responseLength e cl) := by
  unfold responseLength
  refine Keeps.bind (F := Any) (Keeps.modifyResponse Kept.stable fun t ht => ?_) fun _ _ => ?_
  · cases isSet cl.flags Flag.FIELD_REPEATED <;> exact ⟨ht.1, ht.2⟩
  · keeps_walk <;> kept_leaf

macro_rules | `(tactic| keeps_known) => `(tactic| exact responseChunked_quiet (by assumption) _ _)
macro_rules | `(tactic| keeps_known) => `(tactic| exact responseLength_quiet (by assumption) _ _)

theorem responseUntilClose_quiet {s0 : Conn} (hne : s0.resp.state ≠ .idle) (e : Env) (b : Bool) :
    Keeps (Kept s0) Any (responseUntilClose e b) := by
  unfold responseUntilClose
  keeps_walk <;> kept_leaf

macro_rules | `(tactic| keeps_known) => `(tactic| exact responseUntilClose_quiet (by assumption) _ _)

theorem responseFraming_quiet {s0 : Conn} (hne : s0.resp.state ≠ .idle) (e : Env) (te cl : Option Header) :
    Keeps (Kept s0) Any (responseFraming e te cl) := by
  unfold responseFraming
  keeps_walk <;> kept_leaf

macro_rules | `(tactic| keeps_known) => `(tactic| exact responseFraming_quiet (by assumption) _ _ _)

theorem responseBody_quiet {s0 : Conn} (hne : s0.resp.state ≠ .idle) (e : Env) (te cl : Option Header) :
    Keeps (Kept s0) Any (responseBody e te cl) := by
  unfold responseBody
  keeps_walk <;> kept_leaf

macro_rules | `(tactic| keeps_known) => `(tactic| exact responseBody_quiet (by assumption) _ _ _)

theorem responseDetermineRest_quiet {s0 : Conn} (hne : s0.resp.state ≠ .idle) (e : Env) :
    Keeps (Kept s0) Any (responseDetermineRest e) := by
  unfold responseDetermineRest
  keeps_walk <;> kept_leaf

macro_rules | `(tactic| keeps_known) => `(tactic| exact responseDetermineRest_quiet (by assumption) _)

theorem responseBodyDetermine_quiet {s0 : Conn} (hne : s0.resp.state ≠ .idle) (e : Env) :
    Keeps (Kept s0) Any (responseBodyDetermine e) := by
  unfold responseBodyDetermine
  keeps_walk <;> kept_leaf

theorem responseLineAsBody_quiet {s0 : Conn} (hne : s0.resp.state ≠ .idle) (e : Env) (line : Bytes) :
    Keeps (Kept s0) Any (responseLineAsBody e line) := by
  unfold responseLineAsBody
  keeps_walk <;> kept_leaf

macro_rules | `(tactic| keeps_known) => `(tactic| exact responseLineAsBody_quiet (by assumption) _ _)

theorem responseLineRead_quiet {s0 : Conn} (hne : s0.resp.state ≠ .idle) (e : Env) (line : Bytes) :
    Keeps (Kept s0) Any (responseLineRead e line) := by
  unfold responseLineRead
  keeps_walk
  all_goals first | kept_leaf | (rename_i ht; exact ht.of_tag (Tx.tag_readResponseLine _ _))

macro_rules | `(tactic| keeps_known) => `(tactic| exact responseLineRead_quiet (by assumption) _ _)

theorem responseLineComplete_quiet {s0 : Conn} (hne : s0.resp.state ≠ .idle) (e : Env) (line : Bytes) :
    Keeps (Kept s0) Any (responseLineComplete e line) := by
  unfold responseLineComplete
  keeps_walk
  any_goals kept_leaf

macro_rules | `(tactic| keeps_known) => `(tactic| exact responseLineComplete_quiet (by assumption) _ _)

theorem responseLine_quiet {s0 : Conn} (hne : s0.resp.state ≠ .idle) (e : Env) :
    Keeps (Kept s0) Any (responseLine e) := by
  unfold responseLine
  keeps_walk <;> kept_leaf

theorem responseTrailer_quiet {s0 : Conn} (hne : s0.resp.state ≠ .idle) (e : Env) :
    Keeps (Kept s0) Any (responseTrailer e) := by
  unfold responseTrailer
  keeps_walk
  · rename_i s1 h1 s h
    exact h.emitResp (i := s1.txs.response) hne h1.2 rfl (by simp) rfl
  · kept_leaf

macro_rules | `(tactic| keeps_known) => `(tactic| exact responseTrailer_quiet (by assumption) _)

theorem responseHeadersClosed_quiet {s0 : Conn} (hne : s0.resp.state ≠ .idle) (e : Env) :
    Keeps (Kept s0) Any (responseHeadersClosed e) := by
  unfold responseHeadersClosed
  keeps_walk
  · kept_leaf
  · kept_leaf
  · rename_i ht
    exact ht.of_tag (Tx.tag_parseResponseHeaders _ _)

macro_rules | `(tactic| keeps_known) => `(tactic| exact responseHeadersClosed_quiet (by assumption) _)

theorem responseHeadersDone_quiet {s0 : Conn} (hne : s0.resp.state ≠ .idle) (e : Env) :
    Keeps (Kept s0) Any (responseHeadersDone e) := by
  unfold responseHeadersDone
  keeps_walk <;> kept_leaf

macro_rules | `(tactic| keeps_known) => `(tactic| exact responseHeadersDone_quiet (by assumption) _)

theorem responseHeaders_quiet {s0 : Conn} (hne : s0.resp.state ≠ .idle) (e : Env) :
    Keeps (Kept s0) Any (responseHeaders e) := by
  unfold responseHeaders
  keeps_walk
  · kept_leaf
  · rename_i ht
    exact ht.of_tag (Tx.tag_parseResponseHeaders _ _)
  · kept_leaf

/-- `m`, run from a state with `P`, ends in a state with `Q`. -/
def Leads {α : Type} (P Q : Conn → Prop) (m : M α) : Prop := ∀ s, P s → Q (m s).2

namespace Leads

variable {α β : Type} {P Q : Conn → Prop} {F : α → Prop}

theorem bind {m : M α} {f : α → M β} (hP : ∀ s, P s → Q s) (h : Keeps P F m)
    (h' : ∀ a, F a → Leads P Q (f a)) : Leads P Q (m >>= f) := by
  intro s hs
  show Q (match m s with | (.ok a, s) => f a s | (.error e, s) => (.error e, s)).2
  have hm := h s hs
  cases hr : m s with
  | mk r s' =>
    rw [hr] at hm
    cases r with
    | ok a => exact h' a (hm.2 a rfl) s' hm.1
    | error x => exact hP _ hm.1

theorem of {m : M α} (hP : ∀ s, P s → Q s) (h : Keeps P F m) : Leads P Q m := fun s hs => hP _ (h s hs).1

theorem ite {c : Prop} [Decidable c] {m m' : M α} (h : c → Leads P Q m) (h' : ¬c → Leads P Q m') :
    Leads P Q (if c then m else m') := by
  by_cases hc : c
  · rw [if_pos hc]; exact h hc
  · rw [if_neg hc]; exact h' hc

theorem bind_state {f : Conn → M β} (h : ∀ s, P s → Leads P Q (f s)) : Leads P Q (M.state >>= f) :=
  fun s hs => h s hs s hs

end Leads

/-- What the end of a response leaves alone. -/
structure Next (s0 s : Conn) : Prop where
  request : s.txs.request = s0.txs.request
  response : s.txs.response = s0.txs.response + 1
  index : ∀ i t, s.txs.get i = some t → t.index = i
  prog : ∀ i t, s.txs.get i = some t → t.requestProgress = was s0 i
  recv : s.req.receiver = s0.req.receiver
  cl : s.req.contentLength = s0.req.contentLength
  state : s.req.state = s0.req.state ∨ s.req.state = .finalize ∧ s0.req.contentLength.getD 0 > 0
  idle : s.resp.state = .idle ∧ s0.resp.state ≠ .idle
  raw : RawOnly s
  events : ∃ evs, s.trace = s0.trace ++ evs ∧ Quiet s0.txs.response (s0.resp.state = .idle) evs

theorem stateResponseComplete_quiet {s0 : Conn} (hne : s0.resp.state ≠ .idle) (e : Env) :
    Leads (Kept s0) (fun s => Kept s0 s ∨ Next s0 s) (stateResponseComplete e) := by
  unfold stateResponseComplete
  refine Leads.bind (fun _ => .inl) (Keeps.responseTx Kept.stable) fun t ht => ?_
  refine Leads.bind (fun _ => .inl) (Keeps.when fun _ => completeResponse_quiet hne e t ht) fun _ _ => ?_
  refine Leads.bind (fun _ => .inl) requestParserCheckWaiting_quiet fun _ _ => ?_
  refine Leads.bind_state fun s1 h1 => ?_
  refine Leads.bind (fun _ => .inl) (finalizeTx_quiet e _) fun _ _ => ?_
  intro s h
  right
  have hget : ∀ i u, (responseNext e s).2.txs.get i = some u → s.txs.get i = some u := by
    intro i u hu
    exact get_checkFree (j := s.txs.response) (a := e.cfg.txAutoDestroy) hu
  refine ⟨?_, ?_, fun i u hu => h.index i u (hget i u hu), fun i u hu => h.prog i u (hget i u hu), h.recv, h.cl,
    h.state, ⟨rfl, hne⟩, h.raw, h.events⟩
  · show (s.txs.checkFree e.cfg.txAutoDestroy s.txs.response).request = _
    rw [(checkFree_response ..).2, h.1]
  · show (s.txs.checkFree e.cfg.txAutoDestroy s.txs.response).response + 1 = _
    rw [(checkFree_response ..).1, h.2]

theorem responseFinalizeLine_quiet {s0 : Conn} (hne : s0.resp.state ≠ .idle) (e : Env) (w : Bytes) :
    Leads (Kept s0) (fun s => Kept s0 s ∨ Next s0 s) (responseFinalizeLine e w) := by
  unfold responseFinalizeLine
  refine Leads.bind_state fun s1 h1 => ?_
  refine Leads.bind (F := Any) (fun _ => .inl) (by keeps_walk) fun _ _ => ?_
  refine Leads.bind (F := Any) (fun _ => .inl) (by keeps_walk; kept_leaf) fun _ _ => ?_
  refine Leads.ite (fun _ => stateResponseComplete_quiet hne e) fun _ => ?_
  refine Leads.ite (fun _ => ?_) fun _ => ?_
  · exact Leads.of (F := Any) (fun _ => .inl) (by keeps_walk)
  refine Leads.bind (F := Any) (fun _ => .inl) (by keeps_walk; kept_leaf) fun _ _ => ?_
  refine Leads.bind (F := Any) (fun _ => .inl) (by keeps_walk) fun _ _ => ?_
  exact stateResponseComplete_quiet hne e

theorem responseFinalize_quiet {s0 : Conn} (hne : s0.resp.state ≠ .idle) (e : Env) :
    Leads (Kept s0) (fun s => Kept s0 s ∨ Next s0 s) (responseFinalize e) := by
  unfold responseFinalize
  refine Leads.bind_state fun s1 h1 => ?_
  refine Leads.ite (fun _ => stateResponseComplete_quiet hne e) fun _ => ?_
  refine Leads.ite (fun _ => responseFinalizeLine_quiet hne e _) fun _ => ?_
  split
  · exact stateResponseComplete_quiet hne e
  · refine Leads.ite (fun _ => ?_) fun _ => ?_
    · refine Leads.bind (F := Any) (fun _ => .inl) (by keeps_walk) fun _ _ => ?_
      exact responseFinalizeLine_quiet hne e _
    · split
      · refine Leads.bind (F := Any) (fun _ => .inl) (by keeps_walk) fun _ _ => ?_
        exact responseFinalizeLine_quiet hne e _
      · exact Leads.of (F := Any) (fun _ => .inl) (by keeps_walk)

/-! ### What is known of the responses -/

/-- The receivers of raw request data. -/
def RawRequest (s : Conn) : Prop :=
  ∀ h, s.req.receiver = some h → h = .requestHeaderData ∨ h = .requestTrailerData

/-- The transactions of the store carry their indices, and only raw data is collected. -/
structure Base (s : Conn) : Prop where
  index : ∀ i t, s.txs.get i = some t → t.index = i
  raw : RawOnly s
  rawRequest : RawRequest s

/-- `n` responses have begun, for the transactions `0` to `n - 1`; every response callback is for the last
response begun before it. -/
structure Replies (tr : List Event) (n : Nat) : Prop where
  started : hookRuns .responseStart tr = List.range n
  numbered : ∀ pre ev post i, tr = pre ++ ev :: post → responseIndex ev = some i →
    hookRuns .responseStart (pre ++ [ev]) = List.range (i + 1)

theorem Replies.new : Replies [] 0 := ⟨rfl, fun pre ev post i h => by simp at h⟩

theorem Replies.start {tr : List Event} {n : Nat} (h : Replies tr n) :
    Replies (tr ++ [.tx .responseStart n]) (n + 1) := by
  have h1 : hookRuns .responseStart (tr ++ [.tx .responseStart n]) = List.range (n + 1) := by
    rw [hookRuns_append, h.1, List.range_succ]
    rfl
  refine ⟨h1, ?_⟩
  intro pre ev post i he hi
  rcases snoc_split he with ⟨rfl, rfl, rfl⟩ | ⟨post', rfl, h2⟩
  · cases hi
    exact h1
  · exact h.2 pre ev post' i h2 hi

theorem hookRuns_not_start {ev : Event} (h : ∀ i, ev ≠ .tx .responseStart i) :
    hookRuns .responseStart [ev] = [] := by
  cases ev with
  | data => rfl
  | tx hk i =>
    unfold hookRuns
    rw [List.filterMap_cons]
    dsimp only
    have : hk ≠ .responseStart := by rintro rfl; exact h i rfl
    rw [if_neg this]
    rfl

theorem Replies.other {tr : List Event} {n : Nat} {ev : Event} (h : Replies tr n)
    (h1 : ∀ i, ev ≠ .tx .responseStart i) (h2 : ∀ i, responseIndex ev = some i → i + 1 = n) :
    Replies (tr ++ [ev]) n := by
  have h3 : hookRuns .responseStart (tr ++ [ev]) = List.range n := by
    rw [hookRuns_append, h.1, hookRuns_not_start h1, List.append_nil]
  refine ⟨h3, ?_⟩
  intro pre ev' post i he hi
  rcases snoc_split he with ⟨rfl, rfl, rfl⟩ | ⟨post', rfl, h4⟩
  · rw [h3, h2 i hi]
  · exact h.2 pre ev' post' i h4 hi

theorem Replies.others {n : Nat} {evs : List Event} : ∀ {tr : List Event}, Replies tr n →
    (∀ ev ∈ evs, (∀ i, ev ≠ .tx .responseStart i) ∧ ∀ i, responseIndex ev = some i → i + 1 = n) →
    Replies (tr ++ evs) n := by
  induction evs with
  | nil => intro tr h _; simpa using h
  | cons ev evs ih =>
    intro tr h hev
    rw [List.append_cons]
    exact ih (h.other (hev ev (by simp)).1 (hev ev (by simp)).2) fun ev' h' => hev ev' (by simp [h'])

/-- The number of responses that have begun. -/
def Conn.begun (s : Conn) : Nat := if s.resp.state = .idle then s.txs.response else s.txs.response + 1

/-- What a step of the response machine does. -/
def RStep (s s' : Conn) : Prop :=
  Base s → Base s' ∧ s.txs.request ≤ s'.txs.request ∧
    (s'.txs.request = s.txs.request → Orderly s → Orderly s') ∧
    (Replies s.trace s.begun → Replies s'.trace s'.begun)

theorem RStep.pre : Pre RStep where
  refl s h := ⟨h, Nat.le_refl _, fun _ h => h, fun h => h⟩
  trans h1 h2 h := by
    obtain ⟨a1, a2, a3, a4⟩ := h1 h
    obtain ⟨b1, b2, b3, b4⟩ := h2 a1
    exact ⟨b1, by omega, fun he ho => b3 (by omega) (a3 (by omega) ho), fun hr => b4 (a4 hr)⟩

/-- The state of the request side after a response function. -/
theorem Orderly.after {s0 s : Conn} (h : Orderly s0) (hq : s.txs.request = s0.txs.request)
    (hix : ∀ i t, s.txs.get i = some t → t.index = i)
    (hp : ∀ i t, s.txs.get i = some t → t.requestProgress = was s0 i) (hr : s.req.receiver = s0.req.receiver)
    (hc : s.req.contentLength = s0.req.contentLength)
    (hs : s.req.state = s0.req.state ∨ s.req.state = .finalize ∧ s0.req.contentLength.getD 0 > 0)
    (htr : ∃ evs, s.trace = s0.trace ++ evs ∧ ∀ ev ∈ evs, requestStage ev = none) : Orderly s := by
  have hwas : ∀ i, Undone (was s0 s0.txs.request) ∧ (s0.txs.request < i → was s0 i = .notStarted) := by
    intro i
    unfold was
    constructor
    · cases hg : s0.txs.get s0.txs.request with
      | none => simp [Undone]
      | some t => exact h.store.4 t hg
    · intro hi
      cases hg : s0.txs.get i with
      | none => rfl
      | some t => exact h.store.5 i t hi hg
  have hE : Early s → Early s0 := by
    rintro ⟨t, ht, hpr⟩
    rw [hp _ _ ht, hq] at hpr
    unfold was at hpr
    cases hg : s0.txs.get s0.txs.request with
    | none => rw [hg] at hpr; rcases hpr with h | h <;> cases h
    | some u => rw [hg] at hpr; exact ⟨u, hg, hpr⟩
  have hcore : ∀ n, Core s0.trace s0.txs.request n → Core s.trace s.txs.request n := by
    obtain ⟨evs, he, hev⟩ := htr
    intro n hn
    rw [he, hq]
    exact hn.others hev
  refine ⟨⟨rfl, rfl, hix, ?_, ?_⟩, ?_, ?_, ?_⟩
  · intro t ht
    rw [hp _ _ ht, hq]
    exact (hwas 0).1
  · intro i t hi ht
    rw [hp _ _ ht]
    exact (hwas i).2 (by omega)
  · have hf := h.fits
    unfold Fits at hf ⊢
    rcases hs with hs | ⟨hs, hpos⟩
    · rw [hs]
      cases hst : s0.req.state <;> rw [hst] at hf <;> first
        | exact hcore _ hf
        | (refine ⟨hcore _ hf.1, fun h' => hcore _ (hf.2 ?_)⟩
           rw [hr] at h'
           exact h'.imp id hE)
    · rw [hs]
      show Core s.trace s.txs.request 4
      have hcl := h.cl
      have hne : s0.req.contentLength ≠ none := by intro hn; rw [hn] at hpos; simp at hpos
      rcases hcl with hcl | hcl | hcl | hcl | hcl
      · exact absurd hcl hne
      · rw [hcl] at hf; exact (hcore _ hf).mono (by omega)
      · rw [hcl] at hf; exact (hcore _ hf).mono (by omega)
      · rw [hcl] at hf; exact hcore _ hf
      · rw [hcl] at hf; exact hcore _ hf
  · rw [hr]
    rcases h.recv with h1 | h1
    · exact .inl h1
    · rcases hs with hs | ⟨hs, hpos⟩
      · rw [hs]
        exact .inr ⟨h1.1, h1.2.imp id fun h2 => ⟨h2.1, fun h3 => h2.2 (hE h3)⟩⟩
      · have hne : s0.req.contentLength ≠ none := by intro hn; rw [hn] at hpos; simp at hpos
        rcases h.cl with hcl | hcl | hcl | hcl | hcl
        · exact absurd hcl hne
        all_goals rw [h1.1] at hcl; cases hcl
  · rw [hc]
    rcases hs with hs | ⟨hs, hpos⟩
    · rw [hs]; exact h.cl
    · exact .inr (.inr (.inr (.inr hs)))

theorem Kept.step {s0 s : Conn} (h : Kept s0 s) : RStep s0 s := by
  intro hb
  refine ⟨⟨h.index, h.raw, fun x hx => hb.rawRequest x (h.recv ▸ hx)⟩, by rw [h.request]; exact Nat.le_refl _, fun _ ho => ?_, fun hr => ?_⟩
  · obtain ⟨evs, he, hq⟩ := h.events
    exact ho.after h.request h.index h.prog h.recv h.cl h.state ⟨evs, he, fun ev hev => (hq ev hev).1⟩
  · obtain ⟨evs, he, hq⟩ := h.events
    have hbg : s.begun = s0.begun := by
      unfold Conn.begun
      rw [h.response]
      by_cases hi : s0.resp.state = .idle
      · rw [if_pos hi, if_pos (h.idle.2 hi)]
      · rw [if_neg hi, if_neg fun h' => hi (h.idle.1 h')]
    rw [he, hbg]
    refine hr.others fun ev hev => ⟨(hq ev hev).2.1, fun i hi => ?_⟩
    obtain ⟨h1, h2⟩ := (hq ev hev).2.2 i hi
    unfold Conn.begun
    rw [if_neg h2, h1]

theorem Next.step {s0 s : Conn} (h : Next s0 s) : RStep s0 s := by
  intro hb
  refine ⟨⟨h.index, h.raw, fun x hx => hb.rawRequest x (h.recv ▸ hx)⟩, by rw [h.request]; exact Nat.le_refl _, fun _ ho => ?_, fun hr => ?_⟩
  · obtain ⟨evs, he, hq⟩ := h.events
    exact ho.after h.request h.index h.prog h.recv h.cl h.state ⟨evs, he, fun ev hev => (hq ev hev).1⟩
  · obtain ⟨evs, he, hq⟩ := h.events
    have hbg : s.begun = s0.begun := by
      unfold Conn.begun
      rw [h.response, if_pos h.idle.1, if_neg h.idle.2]
    rw [he, hbg]
    refine hr.others fun ev hev => ⟨(hq ev hev).2.1, fun i hi => ?_⟩
    obtain ⟨h1, h2⟩ := (hq ev hev).2.2 i hi
    unfold Conn.begun
    rw [if_neg h2, h1]

end Model

/-
The callbacks run by the functions of the response side.
-/
import Verif.Lemmas.OwnCalls
import Verif.Lemmas.ApartCalls

namespace Model

open M Spec

/-- Since `old` only callbacks of responses have been run, for transactions from `lo` to the current one, `r`. -/
structure OwnResp (old : List Event) (lo r : Nat) (s : Conn) : Prop where
  response : s.txs.response = r
  lower : lo ≤ r
  base : Base s
  events : ∃ evs, s.trace = old ++ evs ∧ ∀ ev ∈ evs, ∃ i, responseCallback ev = some i ∧ lo ≤ i ∧ i ≤ r

theorem OwnResp.stable {old : List Event} {lo r : Nat} : RespStable (OwnResp old lo r) (fun t => t.index = r) where
  get h ht := (h.base.1 _ _ ht).trans h.1
  new h _ := h.1
  put {s t} h ht := by
    refine ⟨h.1, h.2, ⟨?_, h.base.2, h.base.3⟩, h.4⟩
    intro i u hu
    have hu' : (s.txs.set s.txs.response t).get i = some u := hu
    rw [Txs.get_set] at hu'
    split at hu'
    · next hi => cases hu'; rw [hi, h.1]; exact ht
    · exact h.base.1 i u hu'

macro_rules | `(tactic| keeps_stable) => `(tactic| exact OwnResp.stable)

theorem OwnResp.emit {old : List Event} {lo r : Nat} {s : Conn} {ev : Event} (h : OwnResp old lo r s) (hev : responseCallback ev = some r) :
    OwnResp old lo r { s with trace := s.trace ++ [ev] } :=
  ⟨h.1, h.2, ⟨h.base.1, h.base.2, h.base.3⟩, events_emit h.2 hev h.4⟩

theorem OwnResp.setResp {old : List Event} {lo r : Nat} {s : Conn} {h' : Half} (h : OwnResp old lo r s)
    (hr : h'.receiver = s.resp.receiver ∨ h'.receiver = none ∨ h'.receiver = some .responseHeaderData ∨
      h'.receiver = some .responseTrailerData) : OwnResp old lo r { s with resp := h' } := by
  refine ⟨h.1, h.2, ⟨h.base.1, ?_, h.base.3⟩, h.4⟩
  intro x (hx : h'.receiver = some x)
  rcases hr with hr | hr | hr | hr <;> rw [hr] at hx
  · exact h.base.2 x hx
  · cases hx
  · cases hx; exact .inl rfl
  · cases hx; exact .inr rfl

theorem receiver_ok {s s' : Conn} (h : RawRequest s) (hr : s'.req.receiver = s.req.receiver) : RawRequest s' := fun x hx =>
  h x (hr.symm.trans hx)

theorem index_of_asked {t u : Tx} {r : Nat} (ht : t.index = r) (hu : u.asked = t.asked) : u.index = r := by
  have := congrArg Tx.index hu
  exact Eq.trans this ht

/-- Closes the goals `keeps_walk` leaves. -/
macro "rown_leaf" : tactic => `(tactic|
  first
  | assumption
  | (rename_i ht; exact ht)
  | (refine index_of_asked (by assumption) ?_; first
    | rfl
    | exact Tx.asked_validateResponseLine _
    | exact Tx.asked_parseResponseHeaders _ _
    | exact Tx.asked_readResponseLine _ _
    | exact Tx.asked_initResponseDecompressors _ _)
  | (refine OwnResp.setResp (by assumption) ?_; first | exact Or.inl rfl | (simp; done))
  | (refine OwnResp.emit (by assumption) ?_; first | exact congrArg some (OwnResp.response (by assumption)) | exact congrArg some (by assumption))
  | (rename_i h; exact ⟨h.1, h.2, ⟨h.base.1, h.base.2, h.base.3⟩, h.4⟩))

theorem responseConsume_own {old : List Event} {lo r : Nat} (n : Nat) : Keeps (OwnResp old lo r) Any (responseConsume n) := by
  unfold responseConsume
  keeps_walk <;> rown_leaf

macro_rules | `(tactic| keeps_known) => `(tactic| exact responseConsume_own _)

theorem responseUnconsume_own {old : List Event} {lo r : Nat} (n : Nat) : Keeps (OwnResp old lo r) Any (responseUnconsume n) := by
  unfold responseUnconsume
  keeps_walk <;> rown_leaf

macro_rules | `(tactic| keeps_known) => `(tactic| exact responseUnconsume_own _)

theorem responseReceiverSendData_own {old : List Event} {lo r : Nat} (e : Env) : Keeps (OwnResp old lo r) Any (responseReceiverSendData e) := by
  unfold responseReceiverSendData
  refine Keeps.bind_state fun s1 h1 => ?_
  refine Keeps.bind (F := Any) (by keeps_walk; rown_leaf) fun _ _ => ?_
  refine Keeps.bind (Keeps.responseTx OwnResp.stable) fun t ht => ?_
  cases hr : s1.resp.receiver with
  | none => exact Keeps.pure
  | some x =>
    refine Keeps.emit fun s h => ?_
    rcases h1.base.2 x hr with rfl | rfl <;> exact h.emit (congrArg some h1.response)

macro_rules | `(tactic| keeps_known) => `(tactic| exact responseReceiverSendData_own _)

theorem responseReceiverFinalizeClear_own {old : List Event} {lo r : Nat} (e : Env) : Keeps (OwnResp old lo r) Any (responseReceiverFinalizeClear e) := by
  unfold responseReceiverFinalizeClear
  keeps_walk <;> rown_leaf

macro_rules | `(tactic| keeps_known) => `(tactic| exact responseReceiverFinalizeClear_own _)

theorem responseHandleStateChange_own {old : List Event} {lo r : Nat} (e : Env) : Keeps (OwnResp old lo r) Any (responseHandleStateChange e) := by
  unfold responseHandleStateChange responseSetReceiver
  keeps_walk <;> rown_leaf

macro_rules | `(tactic| keeps_known) => `(tactic| exact responseHandleStateChange_own _)

theorem handleResponseAbsentLf_own {old : List Event} {lo r : Nat} (e : Env) : Keeps (OwnResp old lo r) Any (handleResponseAbsentLf e) := by
  unfold handleResponseAbsentLf
  keeps_walk <;> rown_leaf

macro_rules | `(tactic| keeps_known) => `(tactic| exact handleResponseAbsentLf_own _)

theorem responseRunHookBodyData_own {old : List Event} {lo r : Nat} (e : Env) (d : PData) : Keeps (OwnResp old lo r) Any (responseRunHookBodyData e d) := by
  unfold responseRunHookBodyData
  keeps_walk <;> rown_leaf

macro_rules | `(tactic| keeps_known) => `(tactic| exact responseRunHookBodyData_own _ _)

theorem responseDecompressorCallback_own {old : List Event} {lo r : Nat} (e : Env) (o : Option Bytes) : Keeps (OwnResp old lo r) Any (responseDecompressorCallback e o) := by
  unfold responseDecompressorCallback
  keeps_walk <;> rown_leaf

macro_rules | `(tactic| keeps_known) => `(tactic| exact responseDecompressorCallback_own _ _)

theorem responseDecompress_own {old : List Event} {lo r : Nat} (e : Env) (o : Option Bytes) : Keeps (OwnResp old lo r) Any (responseDecompress e o) := by
  unfold responseDecompress
  keeps_walk <;> rown_leaf

macro_rules | `(tactic| keeps_known) => `(tactic| exact responseDecompress_own _ _)

theorem responsePlainBody_own {old : List Event} {lo r : Nat} (e : Env) (o : Option Bytes) : Keeps (OwnResp old lo r) Any (responsePlainBody e o) := by
  unfold responsePlainBody
  keeps_walk <;> rown_leaf

macro_rules | `(tactic| keeps_known) => `(tactic| exact responsePlainBody_own _ _)

theorem responseBodyData_own {old : List Event} {lo r : Nat} (e : Env) (o : Option Bytes) : Keeps (OwnResp old lo r) Any (responseBodyData e o) := by
  unfold responseBodyData
  keeps_walk <;> rown_leaf

macro_rules | `(tactic| keeps_known) => `(tactic| exact responseBodyData_own _ _)

theorem responseBodyChunkedDataEnd_own {old : List Event} {lo r : Nat} (e : Env) : Keeps (OwnResp old lo r) Any (responseBodyChunkedDataEnd e) := by
  unfold responseBodyChunkedDataEnd
  keeps_walk <;> rown_leaf

macro_rules | `(tactic| keeps_known) => `(tactic| exact responseBodyChunkedDataEnd_own _)

theorem responseBodyChunkedData_own {old : List Event} {lo r : Nat} (e : Env) : Keeps (OwnResp old lo r) Any (responseBodyChunkedData e) := by
  unfold responseBodyChunkedData
  keeps_walk <;> rown_leaf

macro_rules | `(tactic| keeps_known) => `(tactic| exact responseBodyChunkedData_own _)

theorem responseChunkLine_own {old : List Event} {lo r : Nat} (e : Env) (line : Bytes) : Keeps (OwnResp old lo r) Any (responseChunkLine e line) := by
  unfold responseChunkLine
  keeps_walk <;> rown_leaf

macro_rules | `(tactic| keeps_known) => `(tactic| exact responseChunkLine_own _ _)

theorem responseChunkedLengthLoop_own {old : List Event} {lo r : Nat} (e : Env) (d : Bytes) : Keeps (OwnResp old lo r) Any (responseChunkedLengthLoop e d) := by
  induction hd : d.length using Nat.strongRecOn generalizing d with
  | ind n ih =>
    unfold responseChunkedLengthLoop
    refine Keeps.bind (Keeps.responseTx OwnResp.stable) fun t ht => ?_
    split
    next remaining line hl2 =>
      have := takeTillIncl_shorter hl2
      have ih := ih remaining.length (by omega) remaining rfl
      keeps_walk <;> rown_leaf
    all_goals keeps_walk <;> rown_leaf

macro_rules | `(tactic| keeps_known) => `(tactic| exact responseChunkedLengthLoop_own _ _)

theorem responseBodyChunkedLength_own {old : List Event} {lo r : Nat} (e : Env) : Keeps (OwnResp old lo r) Any (responseBodyChunkedLength e) := by
  unfold responseBodyChunkedLength
  keeps_walk <;> rown_leaf

macro_rules | `(tactic| keeps_known) => `(tactic| exact responseBodyChunkedLength_own _)

theorem responseIdentityData_own {old : List Event} {lo r : Nat} (e : Env) (n : Nat) : Keeps (OwnResp old lo r) Any (responseIdentityData e n) := by
  unfold responseIdentityData
  keeps_walk <;> rown_leaf

macro_rules | `(tactic| keeps_known) => `(tactic| exact responseIdentityData_own _ _)

theorem responseIdentityOpen_own {old : List Event} {lo r : Nat} (e : Env) : Keeps (OwnResp old lo r) Any (responseIdentityOpen e) := by
  unfold responseIdentityOpen
  keeps_walk <;> rown_leaf

macro_rules | `(tactic| keeps_known) => `(tactic| exact responseIdentityOpen_own _)

theorem responseBodyIdentityClKnown_own {old : List Event} {lo r : Nat} (e : Env) : Keeps (OwnResp old lo r) Any (responseBodyIdentityClKnown e) := by
  unfold responseBodyIdentityClKnown
  keeps_walk <;> rown_leaf

macro_rules | `(tactic| keeps_known) => `(tactic| exact responseBodyIdentityClKnown_own _)

theorem responseStreamData_own {old : List Event} {lo r : Nat} (e : Env) : Keeps (OwnResp old lo r) Any (responseStreamData e) := by
  unfold responseStreamData
  keeps_walk <;> rown_leaf

macro_rules | `(tactic| keeps_known) => `(tactic| exact responseStreamData_own _)

theorem responseBodyIdentityStreamClose_own {old : List Event} {lo r : Nat} (e : Env) : Keeps (OwnResp old lo r) Any (responseBodyIdentityStreamClose e) := by
  unfold responseBodyIdentityStreamClose
  keeps_walk <;> rown_leaf

macro_rules | `(tactic| keeps_known) => `(tactic| exact responseBodyIdentityStreamClose_own _)

theorem stateResponseHeaders_own {old : List Event} {lo r : Nat} (e : Env) : Keeps (OwnResp old lo r) Any (stateResponseHeaders e) := by
  unfold stateResponseHeaders
  keeps_walk <;> rown_leaf

macro_rules | `(tactic| keeps_known) => `(tactic| exact stateResponseHeaders_own _)

theorem stateResponseLine_own {old : List Event} {lo r : Nat} (e : Env) : Keeps (OwnResp old lo r) Any (stateResponseLine e) := by
  unfold stateResponseLine
  keeps_walk <;> rown_leaf

macro_rules | `(tactic| keeps_known) => `(tactic| exact stateResponseLine_own _)

theorem completeResponse_own {old : List Event} {lo r : Nat} (e : Env) (t : Tx) (ht : t.index = r) : Keeps (OwnResp old lo r) Any (completeResponse e t) := by
  unfold completeResponse
  keeps_walk <;> rown_leaf

macro_rules | `(tactic| keeps_known) => `(tactic| exact completeResponse_own _ _ (by assumption))

theorem requestParserCheckWaiting_own {old : List Event} {lo r : Nat} : Keeps (OwnResp old lo r) Any requestParserCheckWaiting := by
  unfold requestParserCheckWaiting
  keeps_walk <;> rown_leaf

macro_rules | `(tactic| keeps_known) => `(tactic| exact requestParserCheckWaiting_own)

theorem unblockRequest_own {old : List Event} {lo r : Nat} : Keeps (OwnResp old lo r) Any unblockRequest := by
  unfold unblockRequest
  refine Keeps.modify fun s h => ⟨h.1, h.2, ⟨h.base.1, h.base.2, ?_⟩, h.4⟩
  refine receiver_ok h.base.3 ?_
  first | rfl | (dsimp only; split <;> rfl)

macro_rules | `(tactic| keeps_known) => `(tactic| exact unblockRequest_own)

theorem responseSwitch_own {old : List Event} {lo r : Nat} : Keeps (OwnResp old lo r) Any responseSwitch := by
  unfold responseSwitch
  refine Keeps.modify fun s h => ⟨h.1, h.2, ⟨h.base.1, h.base.2, ?_⟩, h.4⟩
  refine receiver_ok h.base.3 ?_
  first | rfl | (dsimp only; split <;> rfl)

macro_rules | `(tactic| keeps_known) => `(tactic| exact responseSwitch_own)

theorem responseConnect_own {old : List Event} {lo r : Nat} (e : Env) : Keeps (OwnResp old lo r) Any (responseConnect e) := by
  unfold responseConnect
  keeps_walk <;> rown_leaf

macro_rules | `(tactic| keeps_known) => `(tactic| exact responseConnect_own _)

theorem responseContinue_own {old : List Event} {lo r : Nat} (e : Env) : Keeps (OwnResp old lo r) Any (responseContinue e) := by
  unfold responseContinue
  keeps_walk <;> rown_leaf

macro_rules | `(tactic| keeps_known) => `(tactic| exact responseContinue_own _)

theorem responseExpect_own {old : List Event} {lo r : Nat} (e : Env) : Keeps (OwnResp old lo r) Any (responseExpect e) := by
  unfold responseExpect
  keeps_walk <;> rown_leaf

macro_rules | `(tactic| keeps_known) => `(tactic| exact responseExpect_own _)

theorem responseInterim_own {old : List Event} {lo r : Nat} (e : Env) (te : Option Header) (cl : Option Header) : Keeps (OwnResp old lo r) Any (responseInterim e te cl) := by
  unfold responseInterim
  keeps_walk <;> rown_leaf

macro_rules | `(tactic| keeps_known) => `(tactic| exact responseInterim_own _ _ _)

theorem responseNoBody_own {old : List Event} {lo r : Nat} (e : Env) (te : Option Header) (cl : Option Header) : Keeps (OwnResp old lo r) Any (responseNoBody e te cl) := by
  unfold responseNoBody
  keeps_walk <;> rown_leaf

macro_rules | `(tactic| keeps_known) => `(tactic| exact responseNoBody_own _ _ _)

theorem responseChunked_own {old : List Event} {lo r : Nat} (e : Env) (cl : Option Header) : Keeps (OwnResp old lo r) Any (responseChunked e cl) := by
  unfold responseChunked
  keeps_walk <;> rown_leaf

macro_rules | `(tactic| keeps_known) => `(tactic| exact responseChunked_own _ _)

theorem responseLength_own {old : List Event} {lo r : Nat} (e : Env) (cl : Header) : Keeps (OwnResp old lo r) Any (responseLength e cl) := by
  unfold responseLength
  keeps_walk <;> rown_leaf

macro_rules | `(tactic| keeps_known) => `(tactic| exact responseLength_own _ _)

theorem responseUntilClose_own {old : List Event} {lo r : Nat} (e : Env) (b0 : Bool) : Keeps (OwnResp old lo r) Any (responseUntilClose e b0) := by
  unfold responseUntilClose
  keeps_walk <;> rown_leaf

macro_rules | `(tactic| keeps_known) => `(tactic| exact responseUntilClose_own _ _)

theorem responseFraming_own {old : List Event} {lo r : Nat} (e : Env) (te : Option Header) (cl : Option Header) : Keeps (OwnResp old lo r) Any (responseFraming e te cl) := by
  unfold responseFraming
  keeps_walk <;> rown_leaf

macro_rules | `(tactic| keeps_known) => `(tactic| exact responseFraming_own _ _ _)

theorem responseBody_own {old : List Event} {lo r : Nat} (e : Env) (te : Option Header) (cl : Option Header) : Keeps (OwnResp old lo r) Any (responseBody e te cl) := by
  unfold responseBody
  keeps_walk <;> rown_leaf

macro_rules | `(tactic| keeps_known) => `(tactic| exact responseBody_own _ _ _)

theorem responseDetermineRest_own {old : List Event} {lo r : Nat} (e : Env) : Keeps (OwnResp old lo r) Any (responseDetermineRest e) := by
  unfold responseDetermineRest
  keeps_walk <;> rown_leaf

macro_rules | `(tactic| keeps_known) => `(tactic| exact responseDetermineRest_own _)

theorem responseBodyDetermine_own {old : List Event} {lo r : Nat} (e : Env) : Keeps (OwnResp old lo r) Any (responseBodyDetermine e) := by
  unfold responseBodyDetermine
  keeps_walk <;> rown_leaf

macro_rules | `(tactic| keeps_known) => `(tactic| exact responseBodyDetermine_own _)

theorem responseLineAsBody_own {old : List Event} {lo r : Nat} (e : Env) (line : Bytes) : Keeps (OwnResp old lo r) Any (responseLineAsBody e line) := by
  unfold responseLineAsBody
  keeps_walk <;> rown_leaf

macro_rules | `(tactic| keeps_known) => `(tactic| exact responseLineAsBody_own _ _)

theorem responseLineRead_own {old : List Event} {lo r : Nat} (e : Env) (line : Bytes) : Keeps (OwnResp old lo r) Any (responseLineRead e line) := by
  unfold responseLineRead
  keeps_walk <;> rown_leaf

macro_rules | `(tactic| keeps_known) => `(tactic| exact responseLineRead_own _ _)

theorem responseLineComplete_own {old : List Event} {lo r : Nat} (e : Env) (line : Bytes) : Keeps (OwnResp old lo r) Any (responseLineComplete e line) := by
  unfold responseLineComplete
  refine Keeps.bind (F := Any) Keeps.checkResponseBufferLimit fun _ _ => ?_
  refine Keeps.ite (fun _ => Keeps.fail) fun _ => ?_
  refine Keeps.bind (Keeps.responseTx OwnResp.stable) fun t ht => ?_
  refine Keeps.ite (fun _ => ?_) fun _ => responseLineRead_own e line
  exact Keeps.bind (F := Any) (Keeps.setResp fun _ h => ⟨h.1, h.2, ⟨h.base.1, h.base.2, h.base.3⟩, h.4⟩) fun _ _ => Keeps.putResponse OwnResp.stable ht

macro_rules | `(tactic| keeps_known) => `(tactic| exact responseLineComplete_own _ _)

theorem responseLine_own {old : List Event} {lo r : Nat} (e : Env) : Keeps (OwnResp old lo r) Any (responseLine e) := by
  unfold responseLine
  keeps_walk <;> rown_leaf

macro_rules | `(tactic| keeps_known) => `(tactic| exact responseLine_own _)

theorem responseTrailer_own {old : List Event} {lo r : Nat} (e : Env) : Keeps (OwnResp old lo r) Any (responseTrailer e) := by
  unfold responseTrailer
  keeps_walk <;> rown_leaf

macro_rules | `(tactic| keeps_known) => `(tactic| exact responseTrailer_own _)

theorem responseHeadersClosed_own {old : List Event} {lo r : Nat} (e : Env) : Keeps (OwnResp old lo r) Any (responseHeadersClosed e) := by
  unfold responseHeadersClosed
  keeps_walk <;> rown_leaf

macro_rules | `(tactic| keeps_known) => `(tactic| exact responseHeadersClosed_own _)

theorem responseHeadersDone_own {old : List Event} {lo r : Nat} (e : Env) : Keeps (OwnResp old lo r) Any (responseHeadersDone e) := by
  unfold responseHeadersDone
  keeps_walk <;> rown_leaf

macro_rules | `(tactic| keeps_known) => `(tactic| exact responseHeadersDone_own _)

theorem responseHeaders_own {old : List Event} {lo r : Nat} (e : Env) : Keeps (OwnResp old lo r) Any (responseHeaders e) := by
  unfold responseHeaders
  keeps_walk <;> rown_leaf

macro_rules | `(tactic| keeps_known) => `(tactic| exact responseHeaders_own _)

theorem stateResponseStart_own {old : List Event} {lo r : Nat} (e : Env) : Keeps (OwnResp old lo r) Any (stateResponseStart e) := by
  unfold stateResponseStart
  keeps_walk <;> rown_leaf

theorem responseAfterStep_own {old : List Event} {lo r : Nat} (e : Env) (rc : Except Status Unit) : Keeps (OwnResp old lo r) Any (responseAfterStep e rc) := by
  unfold responseAfterStep responseReturn
  keeps_walk <;> rown_leaf

theorem responseNoteGap_own {old : List Event} {lo r : Nat} (e : Env) : Keeps (OwnResp old lo r) Any (responseNoteGap e) := by
  unfold responseNoteGap responseReturn
  refine Keeps.bind (Keeps.attempt_result (Keeps.responseTx OwnResp.stable)) fun t ht => ?_
  cases t with
  | error x => exact Keeps.pure
  | ok t =>
    have ht : t.index = r := ht t rfl
    keeps_walk <;> rown_leaf

end Model

/-
What a step of the response machine does to the transactions, in general: it reads and writes the current one only, and
does not change what is recorded of the request.
-/
import Verif.Lemmas.Apart
import Verif.Props.Lookup

namespace Model

open M Spec

/-- What is written is written as responses do. -/
macro "resp_write" : tactic => `(tactic| first
  | exact ⟨rfl, Raised.refl _, id, id⟩
  | exact ⟨rfl, Raised.set _ _, id, id⟩
  | exact ⟨rfl, Raised.refl _, fun _ => rfl, id⟩
  | exact ⟨rfl, Raised.refl _, id, fun _ => rfl⟩)

/-- Closes the goals the walk leaves. -/
macro "resp_leaf " h:term : tactic => `(tactic|
  first
  | assumption
  | (rename_i hs; exact RespLocal.other $h hs rfl rfl)
  | (refine RespLocal.same $h (by assumption) ?_; first
    | resp_write
    | exact Tx.write_validateResponseLine _
    | exact Tx.write_parseResponseHeaders _ _
    | exact Tx.write_readResponseLine _ _
    | exact Tx.write_initResponseDecompressors _ _)
  | (rename_i ht; exact RespLocal.same $h ht (by resp_write))
  | (rename_i ht _; exact RespLocal.same $h ht (by resp_write))
  | (rename_i ht _ _; exact RespLocal.same $h ht (by resp_write))
  | (rename_i ht _ _ _; exact RespLocal.same $h ht (by resp_write)))

section
variable {P : Conn → Prop} {F : Tx → Prop}

theorem responseConsume_local (hl : RespLocal P F) (n : Nat) : Keeps P Any (responseConsume n) := by
  unfold responseConsume
  apart_walk hl <;> resp_leaf hl

macro_rules | `(tactic| apart_known) => `(tactic| exact responseConsume_local (by assumption) _)

theorem responseUnconsume_local (hl : RespLocal P F) (n : Nat) : Keeps P Any (responseUnconsume n) := by
  unfold responseUnconsume
  apart_walk hl <;> resp_leaf hl

macro_rules | `(tactic| apart_known) => `(tactic| exact responseUnconsume_local (by assumption) _)

theorem responseReceiverSendData_local (hl : RespLocal P F) (e : Env) : Keeps P Any (responseReceiverSendData e) := by
  unfold responseReceiverSendData
  apart_walk hl <;> resp_leaf hl

macro_rules | `(tactic| apart_known) => `(tactic| exact responseReceiverSendData_local (by assumption) _)

theorem responseReceiverFinalizeClear_local (hl : RespLocal P F) (e : Env) : Keeps P Any (responseReceiverFinalizeClear e) := by
  unfold responseReceiverFinalizeClear
  apart_walk hl <;> resp_leaf hl

macro_rules | `(tactic| apart_known) => `(tactic| exact responseReceiverFinalizeClear_local (by assumption) _)

theorem responseHandleStateChange_local (hl : RespLocal P F) (e : Env) : Keeps P Any (responseHandleStateChange e) := by
  unfold responseHandleStateChange responseSetReceiver
  apart_walk hl <;> resp_leaf hl

macro_rules | `(tactic| apart_known) => `(tactic| exact responseHandleStateChange_local (by assumption) _)

theorem handleResponseAbsentLf_local (hl : RespLocal P F) (e : Env) : Keeps P Any (handleResponseAbsentLf e) := by
  unfold handleResponseAbsentLf
  apart_walk hl <;> resp_leaf hl

macro_rules | `(tactic| apart_known) => `(tactic| exact handleResponseAbsentLf_local (by assumption) _)

theorem responseRunHookBodyData_local (hl : RespLocal P F) (e : Env) (d : PData) : Keeps P Any (responseRunHookBodyData e d) := by
  unfold responseRunHookBodyData
  apart_walk hl <;> resp_leaf hl

macro_rules | `(tactic| apart_known) => `(tactic| exact responseRunHookBodyData_local (by assumption) _ _)

theorem responseDecompressorCallback_local (hl : RespLocal P F) (e : Env) (o : Option Bytes) : Keeps P Any (responseDecompressorCallback e o) := by
  unfold responseDecompressorCallback
  apart_walk hl <;> resp_leaf hl

macro_rules | `(tactic| apart_known) => `(tactic| exact responseDecompressorCallback_local (by assumption) _ _)

theorem responseDecompress_local (hl : RespLocal P F) (e : Env) (o : Option Bytes) : Keeps P Any (responseDecompress e o) := by
  unfold responseDecompress
  apart_walk hl <;> resp_leaf hl

macro_rules | `(tactic| apart_known) => `(tactic| exact responseDecompress_local (by assumption) _ _)

theorem responsePlainBody_local (hl : RespLocal P F) (e : Env) (o : Option Bytes) : Keeps P Any (responsePlainBody e o) := by
  unfold responsePlainBody
  apart_walk hl <;> resp_leaf hl

macro_rules | `(tactic| apart_known) => `(tactic| exact responsePlainBody_local (by assumption) _ _)

theorem responseBodyData_local (hl : RespLocal P F) (e : Env) (o : Option Bytes) : Keeps P Any (responseBodyData e o) := by
  unfold responseBodyData
  apart_walk hl <;> resp_leaf hl

macro_rules | `(tactic| apart_known) => `(tactic| exact responseBodyData_local (by assumption) _ _)

theorem responseBodyChunkedDataEnd_local (hl : RespLocal P F) (e : Env) : Keeps P Any (responseBodyChunkedDataEnd e) := by
  unfold responseBodyChunkedDataEnd
  apart_walk hl <;> resp_leaf hl

macro_rules | `(tactic| apart_known) => `(tactic| exact responseBodyChunkedDataEnd_local (by assumption) _)

theorem responseBodyChunkedData_local (hl : RespLocal P F) (e : Env) : Keeps P Any (responseBodyChunkedData e) := by
  unfold responseBodyChunkedData
  apart_walk hl <;> resp_leaf hl

macro_rules | `(tactic| apart_known) => `(tactic| exact responseBodyChunkedData_local (by assumption) _)

theorem responseChunkLine_local (hl : RespLocal P F) (e : Env) (line : Bytes) : Keeps P Any (responseChunkLine e line) := by
  unfold responseChunkLine
  apart_walk hl <;> resp_leaf hl

macro_rules | `(tactic| apart_known) => `(tactic| exact responseChunkLine_local (by assumption) _ _)

theorem responseChunkedLengthLoop_local (hl : RespLocal P F) (e : Env) (d : Bytes) : Keeps P Any (responseChunkedLengthLoop e d) := by
  induction hd : d.length using Nat.strongRecOn generalizing d with
  | ind n ih =>
    unfold responseChunkedLengthLoop
    refine Keeps.bind (Keeps.responseTx hl.stable) fun t ht => ?_
    split
    next remaining line hl2 =>
      have := takeTillIncl_shorter hl2
      have ih := ih remaining.length (by omega) remaining rfl
      apart_walk hl <;> resp_leaf hl
    all_goals apart_walk hl <;> resp_leaf hl

macro_rules | `(tactic| apart_known) => `(tactic| exact responseChunkedLengthLoop_local (by assumption) _ _)

theorem responseBodyChunkedLength_local (hl : RespLocal P F) (e : Env) : Keeps P Any (responseBodyChunkedLength e) := by
  unfold responseBodyChunkedLength
  apart_walk hl <;> resp_leaf hl

macro_rules | `(tactic| apart_known) => `(tactic| exact responseBodyChunkedLength_local (by assumption) _)

theorem responseIdentityData_local (hl : RespLocal P F) (e : Env) (n : Nat) : Keeps P Any (responseIdentityData e n) := by
  unfold responseIdentityData
  apart_walk hl <;> resp_leaf hl

macro_rules | `(tactic| apart_known) => `(tactic| exact responseIdentityData_local (by assumption) _ _)

theorem responseIdentityOpen_local (hl : RespLocal P F) (e : Env) : Keeps P Any (responseIdentityOpen e) := by
  unfold responseIdentityOpen
  apart_walk hl <;> resp_leaf hl

macro_rules | `(tactic| apart_known) => `(tactic| exact responseIdentityOpen_local (by assumption) _)

theorem responseBodyIdentityClKnown_local (hl : RespLocal P F) (e : Env) : Keeps P Any (responseBodyIdentityClKnown e) := by
  unfold responseBodyIdentityClKnown
  apart_walk hl <;> resp_leaf hl

macro_rules | `(tactic| apart_known) => `(tactic| exact responseBodyIdentityClKnown_local (by assumption) _)

theorem responseStreamData_local (hl : RespLocal P F) (e : Env) : Keeps P Any (responseStreamData e) := by
  unfold responseStreamData
  apart_walk hl <;> resp_leaf hl

macro_rules | `(tactic| apart_known) => `(tactic| exact responseStreamData_local (by assumption) _)

theorem responseBodyIdentityStreamClose_local (hl : RespLocal P F) (e : Env) : Keeps P Any (responseBodyIdentityStreamClose e) := by
  unfold responseBodyIdentityStreamClose
  apart_walk hl <;> resp_leaf hl

macro_rules | `(tactic| apart_known) => `(tactic| exact responseBodyIdentityStreamClose_local (by assumption) _)

theorem stateResponseHeaders_local (hl : RespLocal P F) (e : Env) : Keeps P Any (stateResponseHeaders e) := by
  unfold stateResponseHeaders
  apart_walk hl <;> resp_leaf hl

macro_rules | `(tactic| apart_known) => `(tactic| exact stateResponseHeaders_local (by assumption) _)

theorem stateResponseLine_local (hl : RespLocal P F) (e : Env) : Keeps P Any (stateResponseLine e) := by
  unfold stateResponseLine
  apart_walk hl <;> resp_leaf hl

macro_rules | `(tactic| apart_known) => `(tactic| exact stateResponseLine_local (by assumption) _)

theorem completeResponse_local (hl : RespLocal P F) (e : Env) (t : Tx) (ht : F t) : Keeps P Any (completeResponse e t) := by
  unfold completeResponse
  apart_walk hl <;> resp_leaf hl

macro_rules | `(tactic| apart_known) => `(tactic| exact completeResponse_local (by assumption) _ _ (by assumption))

theorem requestParserCheckWaiting_local (hl : RespLocal P F) : Keeps P Any requestParserCheckWaiting := by
  unfold requestParserCheckWaiting
  apart_walk hl <;> resp_leaf hl

macro_rules | `(tactic| apart_known) => `(tactic| exact requestParserCheckWaiting_local (by assumption))

theorem unblockRequest_local (hl : RespLocal P F) : Keeps P Any unblockRequest := by
  unfold unblockRequest
  exact Keeps.modify fun _ h => hl.other h rfl rfl

macro_rules | `(tactic| apart_known) => `(tactic| exact unblockRequest_local (by assumption))

theorem responseSwitch_local (hl : RespLocal P F) : Keeps P Any responseSwitch := by
  unfold responseSwitch
  refine Keeps.modify fun s h => hl.other h rfl ?_
  show ParserKept s.req (if s.req.status = .error then s.req else { s.req with status := .tunnel })
  split <;> rfl

macro_rules | `(tactic| apart_known) => `(tactic| exact responseSwitch_local (by assumption))

theorem responseConnect_local (hl : RespLocal P F) (e : Env) : Keeps P Any (responseConnect e) := by
  unfold responseConnect
  apart_walk hl <;> resp_leaf hl

macro_rules | `(tactic| apart_known) => `(tactic| exact responseConnect_local (by assumption) _)

theorem responseContinue_local (hl : RespLocal P F) (e : Env) : Keeps P Any (responseContinue e) := by
  unfold responseContinue
  apart_walk hl <;> resp_leaf hl

macro_rules | `(tactic| apart_known) => `(tactic| exact responseContinue_local (by assumption) _)

theorem responseExpect_local (hl : RespLocal P F) (e : Env) : Keeps P Any (responseExpect e) := by
  unfold responseExpect
  refine Keeps.bind_state fun s hs => ?_
  refine Keeps.bind (Keeps.responseTx hl.stable) fun t ht => ?_
  refine Keeps.when fun h1 => ?_
  split
  next h hh =>
    have hm := List.find?_some (p := fun h : Header => cmpNocaseTrimmed h.name (b! "expect") == .eq) hh
    refine Keeps.when fun h2 => Keeps.setReq fun s' hs' => ?_
    simp only [Bool.and_eq_true, decide_eq_true_eq, beq_iff_eq] at h1
    refine hl.refuse hs hs' ht ⟨h1.1.2, h1.2⟩ ⟨h, List.mem_of_find?_eq_some hh, ?_, ?_⟩
    · exact (Props.cmpNocaseTrimmed_iff _ _).mp hm
    · exact (iterCmp_eq _ _).mp (beq_iff_eq.mp h2)
  · exact Keeps.pure

macro_rules | `(tactic| apart_known) => `(tactic| exact responseExpect_local (by assumption) _)

theorem responseInterim_local (hl : RespLocal P F) (e : Env) (te : Option Header) (cl : Option Header) : Keeps P Any (responseInterim e te cl) := by
  unfold responseInterim
  apart_walk hl <;> resp_leaf hl

macro_rules | `(tactic| apart_known) => `(tactic| exact responseInterim_local (by assumption) _ _ _)

theorem responseNoBody_local (hl : RespLocal P F) (e : Env) (te : Option Header) (cl : Option Header) : Keeps P Any (responseNoBody e te cl) := by
  unfold responseNoBody
  apart_walk hl <;> resp_leaf hl

macro_rules | `(tactic| apart_known) => `(tactic| exact responseNoBody_local (by assumption) _ _ _)

theorem responseChunked_local (hl : RespLocal P F) (e : Env) (cl : Option Header) : Keeps P Any (responseChunked e cl) := by
  unfold responseChunked
  apart_walk hl <;> resp_leaf hl

macro_rules | `(tactic| apart_known) => `(tactic| exact responseChunked_local (by assumption) _ _)

theorem responseLength_local (hl : RespLocal P F) (e : Env) (cl : Header) : Keeps P Any (responseLength e cl) := by
  unfold responseLength
  apart_walk hl <;> resp_leaf hl

macro_rules | `(tactic| apart_known) => `(tactic| exact responseLength_local (by assumption) _ _)

theorem responseUntilClose_local (hl : RespLocal P F) (e : Env) (b0 : Bool) : Keeps P Any (responseUntilClose e b0) := by
  unfold responseUntilClose
  apart_walk hl <;> resp_leaf hl

macro_rules | `(tactic| apart_known) => `(tactic| exact responseUntilClose_local (by assumption) _ _)

theorem responseFraming_local (hl : RespLocal P F) (e : Env) (te : Option Header) (cl : Option Header) : Keeps P Any (responseFraming e te cl) := by
  unfold responseFraming
  apart_walk hl <;> resp_leaf hl

macro_rules | `(tactic| apart_known) => `(tactic| exact responseFraming_local (by assumption) _ _ _)

theorem responseBody_local (hl : RespLocal P F) (e : Env) (te : Option Header) (cl : Option Header) : Keeps P Any (responseBody e te cl) := by
  unfold responseBody
  apart_walk hl <;> resp_leaf hl

macro_rules | `(tactic| apart_known) => `(tactic| exact responseBody_local (by assumption) _ _ _)

theorem responseDetermineRest_local (hl : RespLocal P F) (e : Env) : Keeps P Any (responseDetermineRest e) := by
  unfold responseDetermineRest
  apart_walk hl <;> resp_leaf hl

macro_rules | `(tactic| apart_known) => `(tactic| exact responseDetermineRest_local (by assumption) _)

theorem responseBodyDetermine_local (hl : RespLocal P F) (e : Env) : Keeps P Any (responseBodyDetermine e) := by
  unfold responseBodyDetermine
  apart_walk hl <;> resp_leaf hl

macro_rules | `(tactic| apart_known) => `(tactic| exact responseBodyDetermine_local (by assumption) _)

theorem responseLineAsBody_local (hl : RespLocal P F) (e : Env) (line : Bytes) : Keeps P Any (responseLineAsBody e line) := by
  unfold responseLineAsBody
  apart_walk hl <;> resp_leaf hl

macro_rules | `(tactic| apart_known) => `(tactic| exact responseLineAsBody_local (by assumption) _ _)

theorem responseLineRead_local (hl : RespLocal P F) (e : Env) (line : Bytes) : Keeps P Any (responseLineRead e line) := by
  unfold responseLineRead
  apart_walk hl <;> resp_leaf hl

macro_rules | `(tactic| apart_known) => `(tactic| exact responseLineRead_local (by assumption) _ _)

theorem responseLineComplete_local (hl : RespLocal P F) (e : Env) (line : Bytes) : Keeps P Any (responseLineComplete e line) := by
  unfold responseLineComplete
  refine Keeps.bind (F := Any) Keeps.checkResponseBufferLimit fun _ _ => ?_
  refine Keeps.ite (fun _ => Keeps.fail) fun _ => ?_
  refine Keeps.bind (Keeps.responseTx hl.stable) fun t ht => ?_
  refine Keeps.ite (fun _ => ?_) fun _ => responseLineRead_local hl e line
  exact Keeps.bind (F := Any) (Keeps.setResp fun _ h => hl.other h rfl rfl) fun _ _ => Keeps.putResponse hl.stable (hl.same ht (by resp_write))

macro_rules | `(tactic| apart_known) => `(tactic| exact responseLineComplete_local (by assumption) _ _)

theorem responseLine_local (hl : RespLocal P F) (e : Env) : Keeps P Any (responseLine e) := by
  unfold responseLine
  apart_walk hl <;> resp_leaf hl

macro_rules | `(tactic| apart_known) => `(tactic| exact responseLine_local (by assumption) _)

theorem responseTrailer_local (hl : RespLocal P F) (e : Env) : Keeps P Any (responseTrailer e) := by
  unfold responseTrailer
  apart_walk hl <;> resp_leaf hl

macro_rules | `(tactic| apart_known) => `(tactic| exact responseTrailer_local (by assumption) _)

theorem responseHeadersClosed_local (hl : RespLocal P F) (e : Env) : Keeps P Any (responseHeadersClosed e) := by
  unfold responseHeadersClosed
  apart_walk hl <;> resp_leaf hl

macro_rules | `(tactic| apart_known) => `(tactic| exact responseHeadersClosed_local (by assumption) _)

theorem responseHeadersDone_local (hl : RespLocal P F) (e : Env) : Keeps P Any (responseHeadersDone e) := by
  unfold responseHeadersDone
  apart_walk hl <;> resp_leaf hl

macro_rules | `(tactic| apart_known) => `(tactic| exact responseHeadersDone_local (by assumption) _)

theorem responseHeaders_local (hl : RespLocal P F) (e : Env) : Keeps P Any (responseHeaders e) := by
  unfold responseHeaders
  apart_walk hl <;> resp_leaf hl

macro_rules | `(tactic| apart_known) => `(tactic| exact responseHeaders_local (by assumption) _)

theorem stateResponseStart_local (hl : RespLocal P F) (e : Env) : Keeps P Any (stateResponseStart e) := by
  unfold stateResponseStart
  apart_walk hl <;> resp_leaf hl

theorem responseAfterStep_local (hl : RespLocal P F) (e : Env) (rc : Except Status Unit) : Keeps P Any (responseAfterStep e rc) := by
  unfold responseAfterStep responseReturn
  apart_walk hl <;> resp_leaf hl

theorem responseNoteGap_local (hl : RespLocal P F) (e : Env) : Keeps P Any (responseNoteGap e) := by
  unfold responseNoteGap responseReturn
  refine Keeps.bind (Keeps.attempt_result (Keeps.responseTx hl.stable)) fun t ht => ?_
  cases t with
  | error x => exact Keeps.pure
  | ok t =>
    have ht : F t := ht t rfl
    apart_walk hl <;> first | resp_leaf hl | exact hl.same ht (by resp_write)

end

end Model

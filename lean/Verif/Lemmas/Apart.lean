/-
What a step of the request machine does to the transactions, in general: it reads and writes the current one only, and
does not change what is recorded of the response.
-/
import Verif.Lemmas.Keeps
import Verif.Lemmas.Growth
import Verif.Lemmas.OrderOps
import Verif.Spec.Expect

namespace Model

open M Spec

/-- A predicate that survives what the request functions do: they read and write the current request transaction without
changing what is recorded of the response, and leave the other transactions alone. -/
structure ReqLocal (P : Conn → Prop) (F : Tx → Prop) : Prop where
  stable : ReqStable P F
  other : ∀ {s s' : Conn}, P s → s'.txs = s.txs → P s'
  same : ∀ {t t' : Tx}, F t → ReqWrite t t' → F t'

/-- The same for the response functions. They leave the request parser alone, too, unless a response refuses the body that a
request waits to send. -/
structure RespLocal (P : Conn → Prop) (F : Tx → Prop) : Prop where
  stable : RespStable P F
  other : ∀ {s s' : Conn}, P s → s'.txs = s.txs → ParserKept s.req s'.req → P s'
  refuse : ∀ {s s' : Conn} {t : Tx}, P s → P s' → F t → WholeBodyAhead s.req → Expects t →
    P { s' with req := { s'.req with state := .finalize } }
  same : ∀ {t t' : Tx}, F t → RespWrite t t' → F t'

/-- Extensible: closes a goal for a function already dealt with. -/
syntax "apart_known" : tactic

macro_rules | `(tactic| apart_known) => `(tactic| assumption)

/-- Walks through the text of a function; `h` is the fact about the predicate. -/
macro "apart_walk " h:term : tactic => `(tactic| repeat' (with_reducible first
  | apart_known
  | exact Keeps.pure
  | exact Keeps.raise
  | exact Keeps.fail
  | exact Keeps.ofExcept
  | exact Keeps.inputPrefix
  | exact Keeps.checkRequestBufferLimit
  | exact Keeps.checkResponseBufferLimit
  | refine Keeps.bind_state ?_
  | refine Keeps.bind (Keeps.requestTx (ReqLocal.stable $h)) ?_
  | refine Keeps.bind (Keeps.responseTx (RespLocal.stable $h)) ?_
  | refine Keeps.bind (F := Any) ?_ ?_
  | refine Keeps.ite ?_ ?_
  | refine Keeps.when ?_
  | refine Keeps.attempt (F := Any) ?_
  | refine Keeps.runDecoding ?_ _
  | refine Keeps.putRequest (ReqLocal.stable $h) ?_
  | refine Keeps.putResponse (RespLocal.stable $h) ?_
  | refine Keeps.modifyRequest (ReqLocal.stable $h) ?_
  | refine Keeps.modifyResponse (RespLocal.stable $h) ?_
  | refine Keeps.onRequest (ReqLocal.stable $h) ?_
  | refine Keeps.withRequest (ReqLocal.stable $h) ?_
  | refine Keeps.withResponse (RespLocal.stable $h) ?_
  | refine Keeps.emit ?_
  | refine Keeps.runTxHook ?_
  | refine Keeps.modify ?_
  | refine Keeps.setReq ?_
  | refine Keeps.setResp ?_
  | intro _
  | split))

/-- What is written is written as requests do. -/
macro "req_write" : tactic => `(tactic| first
  | exact ⟨rfl, Raised.refl _⟩
  | exact ⟨rfl, Raised.set _ _⟩)

/-- Closes the goals the walk leaves. -/
macro "apart_leaf " h:term : tactic => `(tactic|
  first
  | assumption
  | (rename_i hs; exact ($h).other hs rfl)
  | (refine ($h).same (by assumption) ?_; req_write)
  | (rename_i ht; exact ($h).same ht (by req_write))
  | (rename_i ht _; exact ($h).same ht (by req_write))
  | (rename_i ht _ _; exact ($h).same ht (by req_write))
  | (rename_i ht _ _ _; exact ($h).same ht (by req_write)))

section
variable {P : Conn → Prop} {F : Tx → Prop}

theorem requestConsume_local (h : ReqLocal P F) (n : Nat) : Keeps P Any (requestConsume n) := by
  unfold requestConsume
  apart_walk h <;> apart_leaf h

macro_rules | `(tactic| apart_known) => `(tactic| exact requestConsume_local (by assumption) _)

theorem requestUnconsume_local (h : ReqLocal P F) (n : Nat) : Keeps P Any (requestUnconsume n) := by
  unfold requestUnconsume
  apart_walk h <;> apart_leaf h

macro_rules | `(tactic| apart_known) => `(tactic| exact requestUnconsume_local (by assumption) _)

theorem requestReceiverSendData_local (h : ReqLocal P F) (e : Env) : Keeps P Any (requestReceiverSendData e) := by
  unfold requestReceiverSendData
  apart_walk h <;> apart_leaf h

macro_rules | `(tactic| apart_known) => `(tactic| exact requestReceiverSendData_local (by assumption) _)

theorem requestReceiverFinalizeClear_local (h : ReqLocal P F) (e : Env) : Keeps P Any (requestReceiverFinalizeClear e) := by
  unfold requestReceiverFinalizeClear
  apart_walk h <;> apart_leaf h

macro_rules | `(tactic| apart_known) => `(tactic| exact requestReceiverFinalizeClear_local (by assumption) _)

theorem requestSetReceiver_local (h : ReqLocal P F) (e : Env) : Keeps P Any (requestSetReceiver e) := by
  unfold requestSetReceiver
  apart_walk h <;> apart_leaf h

macro_rules | `(tactic| apart_known) => `(tactic| exact requestSetReceiver_local (by assumption) _)

theorem requestHandleStateChange_local (h : ReqLocal P F) (e : Env) : Keeps P Any (requestHandleStateChange e) := by
  unfold requestHandleStateChange
  apart_walk h <;> apart_leaf h

macro_rules | `(tactic| apart_known) => `(tactic| exact requestHandleStateChange_local (by assumption) _)

theorem handleRequestAbsentLf_local (h : ReqLocal P F) (e : Env) : Keeps P Any (handleRequestAbsentLf e) := by
  unfold handleRequestAbsentLf
  apart_walk h <;> apart_leaf h

macro_rules | `(tactic| apart_known) => `(tactic| exact handleRequestAbsentLf_local (by assumption) _)

theorem requestRunHookBodyData_local (h : ReqLocal P F) (e : Env) (d : PData) : Keeps P Any (requestRunHookBodyData e d) := by
  unfold requestRunHookBodyData
  apart_walk h <;> apart_leaf h

macro_rules | `(tactic| apart_known) => `(tactic| exact requestRunHookBodyData_local (by assumption) _ _)

theorem requestDecompressorCallback_local (h : ReqLocal P F) (e : Env) (o : Option Bytes) : Keeps P Any (requestDecompressorCallback e o) := by
  unfold requestDecompressorCallback
  apart_walk h <;> apart_leaf h

macro_rules | `(tactic| apart_known) => `(tactic| exact requestDecompressorCallback_local (by assumption) _ _)

theorem requestDecompress_local (h : ReqLocal P F) (e : Env) (o : Option Bytes) : Keeps P Any (requestDecompress e o) := by
  unfold requestDecompress
  apart_walk h <;> apart_leaf h

macro_rules | `(tactic| apart_known) => `(tactic| exact requestDecompress_local (by assumption) _ _)

theorem requestPlainBody_local (h : ReqLocal P F) (e : Env) (o : Option Bytes) : Keeps P Any (requestPlainBody e o) := by
  unfold requestPlainBody
  apart_walk h <;> apart_leaf h

macro_rules | `(tactic| apart_known) => `(tactic| exact requestPlainBody_local (by assumption) _ _)

theorem requestBodyData_local (h : ReqLocal P F) (e : Env) (o : Option Bytes) : Keeps P Any (requestBodyData e o) := by
  unfold requestBodyData
  apart_walk h <;> apart_leaf h

macro_rules | `(tactic| apart_known) => `(tactic| exact requestBodyData_local (by assumption) _ _)

theorem stateRequestStart_local (h : ReqLocal P F) (e : Env) : Keeps P Any (stateRequestStart e) := by
  unfold stateRequestStart
  apart_walk h <;> apart_leaf h

macro_rules | `(tactic| apart_known) => `(tactic| exact stateRequestStart_local (by assumption) _)

theorem stateRequestTrailer_local (h : ReqLocal P F) (e : Env) : Keeps P Any (stateRequestTrailer e) := by
  unfold stateRequestTrailer
  apart_walk h <;> apart_leaf h

macro_rules | `(tactic| apart_known) => `(tactic| exact stateRequestTrailer_local (by assumption) _)

theorem stateRequestHeadersDone_local (h : ReqLocal P F) (e : Env) : Keeps P Any (stateRequestHeadersDone e) := by
  unfold stateRequestHeadersDone
  apart_walk h <;> (first | (rename_i ht; with_reducible exact h.same ht (Tx.write_processRequestHeaders _ _)) | (rename_i ht; with_reducible exact h.same ht (Tx.write_initRequestDecompressors _ _)) | apart_leaf h)

macro_rules | `(tactic| apart_known) => `(tactic| exact stateRequestHeadersDone_local (by assumption) _)

theorem stateRequestHeaders_local (h : ReqLocal P F) (e : Env) : Keeps P Any (stateRequestHeaders e) := by
  unfold stateRequestHeaders
  apart_walk h <;> apart_leaf h

macro_rules | `(tactic| apart_known) => `(tactic| exact stateRequestHeaders_local (by assumption) _)

theorem stateRequestLine_local (h : ReqLocal P F) (e : Env) : Keeps P Any (stateRequestLine e) := by
  unfold stateRequestLine
  apart_walk h <;> (first | (rename_i ht; with_reducible exact h.same ht (Tx.write_parseRequestLine _ _)) | (rename_i ht _ _ hu; with_reducible exact h.same ht (Tx.write_storeNormalizedUri _ _ hu)) | apart_leaf h)

macro_rules | `(tactic| apart_known) => `(tactic| exact stateRequestLine_local (by assumption) _)

theorem finalizeTx_local (h : ReqLocal P F) (e : Env) (i : Nat) : Keeps P Any (finalizeTx e i) := by
  unfold finalizeTx
  apart_walk h <;> apart_leaf h

macro_rules | `(tactic| apart_known) => `(tactic| exact finalizeTx_local (by assumption) _ _)

theorem completeRequest_local (h : ReqLocal P F) (e : Env) (t : Tx) : Keeps P Any (completeRequest e t) := by
  unfold completeRequest
  apart_walk h <;> apart_leaf h

macro_rules | `(tactic| apart_known) => `(tactic| exact completeRequest_local (by assumption) _ _)

theorem requestConnectCheck_local (h : ReqLocal P F) (e : Env) : Keeps P Any (requestConnectCheck e) := by
  unfold requestConnectCheck
  apart_walk h <;> apart_leaf h

macro_rules | `(tactic| apart_known) => `(tactic| exact requestConnectCheck_local (by assumption) _)

theorem requestConnectWaitResponse_local (h : ReqLocal P F) (e : Env) : Keeps P Any (requestConnectWaitResponse e) := by
  unfold requestConnectWaitResponse
  apart_walk h <;> apart_leaf h

macro_rules | `(tactic| apart_known) => `(tactic| exact requestConnectWaitResponse_local (by assumption) _)

theorem requestBodyChunkedDataEnd_local (h : ReqLocal P F) (e : Env) : Keeps P Any (requestBodyChunkedDataEnd e) := by
  unfold requestBodyChunkedDataEnd
  apart_walk h <;> apart_leaf h

macro_rules | `(tactic| apart_known) => `(tactic| exact requestBodyChunkedDataEnd_local (by assumption) _)

theorem requestBodyChunkedData_local (h : ReqLocal P F) (e : Env) : Keeps P Any (requestBodyChunkedData e) := by
  unfold requestBodyChunkedData
  apart_walk h <;> apart_leaf h

macro_rules | `(tactic| apart_known) => `(tactic| exact requestBodyChunkedData_local (by assumption) _)

theorem requestChunkLine_local (h : ReqLocal P F) (e : Env) (l : Bytes) : Keeps P Any (requestChunkLine e l) := by
  unfold requestChunkLine
  apart_walk h <;> apart_leaf h

macro_rules | `(tactic| apart_known) => `(tactic| exact requestChunkLine_local (by assumption) _ _)

theorem requestChunkedLengthLoop_local (h : ReqLocal P F) (e : Env) (d : Bytes) : Keeps P Any (requestChunkedLengthLoop e d) := by
  induction hl : d.length using Nat.strongRecOn generalizing d with
  | ind n ih =>
    unfold requestChunkedLengthLoop
    split
    next remaining line hl2 =>
      have := takeTillIncl_shorter hl2
      have ih := ih remaining.length (by omega) remaining rfl
      apart_walk h <;> apart_leaf h
    all_goals
      apart_walk h <;> apart_leaf h

macro_rules | `(tactic| apart_known) => `(tactic| exact requestChunkedLengthLoop_local (by assumption) _ _)

theorem requestBodyChunkedLength_local (h : ReqLocal P F) (e : Env) : Keeps P Any (requestBodyChunkedLength e) := by
  unfold requestBodyChunkedLength
  apart_walk h <;> apart_leaf h

macro_rules | `(tactic| apart_known) => `(tactic| exact requestBodyChunkedLength_local (by assumption) _)

theorem requestIdentityData_local (h : ReqLocal P F) (e : Env) (n : Nat) : Keeps P Any (requestIdentityData e n) := by
  unfold requestIdentityData
  apart_walk h <;> apart_leaf h

macro_rules | `(tactic| apart_known) => `(tactic| exact requestIdentityData_local (by assumption) _ _)

theorem requestBodyIdentity_local (h : ReqLocal P F) (e : Env) : Keeps P Any (requestBodyIdentity e) := by
  unfold requestBodyIdentity
  apart_walk h <;> apart_leaf h

macro_rules | `(tactic| apart_known) => `(tactic| exact requestBodyIdentity_local (by assumption) _)

theorem requestBodyDetermine_local (h : ReqLocal P F) (e : Env) : Keeps P Any (requestBodyDetermine e) := by
  unfold requestBodyDetermine
  apart_walk h <;> apart_leaf h

macro_rules | `(tactic| apart_known) => `(tactic| exact requestBodyDetermine_local (by assumption) _)

theorem requestHeadersClosed_local (h : ReqLocal P F) (e : Env) : Keeps P Any (requestHeadersClosed e) := by
  unfold requestHeadersClosed
  apart_walk h <;> (first | (rename_i ht; with_reducible exact h.same ht (Tx.write_parseRequestHeaders _ _)) | apart_leaf h)

macro_rules | `(tactic| apart_known) => `(tactic| exact requestHeadersClosed_local (by assumption) _)

theorem requestHeaders_local (h : ReqLocal P F) (e : Env) : Keeps P Any (requestHeaders e) := by
  unfold requestHeaders
  apart_walk h <;> (first | (rename_i ht; with_reducible exact h.same ht (Tx.write_parseRequestHeaders _ _)) | apart_leaf h)

macro_rules | `(tactic| apart_known) => `(tactic| exact requestHeaders_local (by assumption) _)

theorem requestProtocol_local (h : ReqLocal P F) (e : Env) : Keeps P Any (requestProtocol e) := by
  unfold requestProtocol
  apart_walk h <;> apart_leaf h

macro_rules | `(tactic| apart_known) => `(tactic| exact requestProtocol_local (by assumption) _)

theorem requestLineComplete_local (h : ReqLocal P F) (e : Env) (l : Bytes) : Keeps P Any (requestLineComplete e l) := by
  unfold requestLineComplete
  apart_walk h <;> (first | (rename_i ht _; with_reducible exact h.same ht (Tx.write_readRequestLine _ _ _)) | apart_leaf h)

macro_rules | `(tactic| apart_known) => `(tactic| exact requestLineComplete_local (by assumption) _ _)

theorem requestLine_local (h : ReqLocal P F) (e : Env) : Keeps P Any (requestLine e) := by
  unfold requestLine
  apart_walk h <;> apart_leaf h

macro_rules | `(tactic| apart_known) => `(tactic| exact requestLine_local (by assumption) _)

theorem requestIgnoreDataAfterHttp09_local (h : ReqLocal P F) : Keeps P Any (requestIgnoreDataAfterHttp09) := by
  unfold requestIgnoreDataAfterHttp09
  apart_walk h <;> apart_leaf h

macro_rules | `(tactic| apart_known) => `(tactic| exact requestIgnoreDataAfterHttp09_local (by assumption))

theorem requestReset_local (h : ReqLocal P F) : Keeps P Any (requestReset) := by
  unfold requestReset
  apart_walk h <;> apart_leaf h

macro_rules | `(tactic| apart_known) => `(tactic| exact requestReset_local (by assumption))

theorem requestIdle_local (h : ReqLocal P F) (e : Env) : Keeps P Any (requestIdle e) := by
  unfold requestIdle
  apart_walk h <;> apart_leaf h

macro_rules | `(tactic| apart_known) => `(tactic| exact requestIdle_local (by assumption) _)

theorem requestAfterStep_local (h : ReqLocal P F) (e : Env) (rc : Except Status Unit) : Keeps P Any (requestAfterStep e rc) := by
  unfold requestAfterStep requestReturn
  apart_walk h <;> apart_leaf h

theorem requestNoteGap_local (h : ReqLocal P F) (e : Env) : Keeps P Any (requestNoteGap e) := by
  unfold requestNoteGap requestReturn
  refine Keeps.bind (Keeps.attempt_result (Keeps.requestTx h.stable)) fun t ht => ?_
  cases t with
  | error x => exact Keeps.pure
  | ok t =>
    have ht : F t := ht t rfl
    apart_walk h <;> first | apart_leaf h | exact h.same ht (by req_write)

end

end Model

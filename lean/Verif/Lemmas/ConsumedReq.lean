/-
The request machine asks for more data only when it has used up the chunk.
-/
import Verif.Lemmas.Consumed

namespace Model

open M Spec

theorem requestReceiverSendData_sure {e : Env} (hd : Definite e) : Sure (requestReceiverSendData e) := by
  unfold requestReceiverSendData
  sure_walk

macro_rules | `(tactic| sure_known) => `(tactic| exact requestReceiverSendData_sure (by assumption))

theorem requestReceiverFinalizeClear_sure {e : Env} (hd : Definite e) : Sure (requestReceiverFinalizeClear e) := by
  unfold requestReceiverFinalizeClear
  refine Sure.bind Sure.state fun s => ?_
  split
  · exact Sure.pure
  · exact Sure.bind_attempt (requestReceiverSendData_sure hd) fun rc hrc => Sure.bind Sure.setReq fun _ => Sure.ofExcept hrc

macro_rules | `(tactic| sure_known) => `(tactic| exact requestReceiverFinalizeClear_sure (by assumption))

theorem requestSetReceiver_sure {e : Env} (_hd : Definite e) : Sure (requestSetReceiver e) := by
  unfold requestSetReceiver
  sure_walk

macro_rules | `(tactic| sure_known) => `(tactic| exact requestSetReceiver_sure (by assumption))

theorem requestHandleStateChange_sure {e : Env} (hd : Definite e) : Sure (requestHandleStateChange e) := by
  unfold requestHandleStateChange
  sure_walk

macro_rules | `(tactic| sure_known) => `(tactic| exact requestHandleStateChange_sure (by assumption))

theorem requestRunHookBodyData_sure {e : Env} (hd : Definite e) (d : PData) : Sure (requestRunHookBodyData e d) := by
  unfold requestRunHookBodyData
  sure_walk

macro_rules | `(tactic| sure_known) => `(tactic| exact requestRunHookBodyData_sure (by assumption) _)

theorem requestDecompressorCallback_sure {e : Env} (hd : Definite e) (o : Option Bytes) : Sure (requestDecompressorCallback e o) := by
  unfold requestDecompressorCallback
  sure_walk

macro_rules | `(tactic| sure_known) => `(tactic| exact requestDecompressorCallback_sure (by assumption) _)

theorem requestDecompress_sure {e : Env} (_hd : Definite e) (o : Option Bytes) : Sure (requestDecompress e o) := by
  unfold requestDecompress
  sure_walk

macro_rules | `(tactic| sure_known) => `(tactic| exact requestDecompress_sure (by assumption) _)

theorem requestPlainBody_sure {e : Env} (hd : Definite e) (o : Option Bytes) : Sure (requestPlainBody e o) := by
  unfold requestPlainBody
  sure_walk

macro_rules | `(tactic| sure_known) => `(tactic| exact requestPlainBody_sure (by assumption) _)

theorem requestBodyData_sure {e : Env} (hd : Definite e) (o : Option Bytes) : Sure (requestBodyData e o) := by
  unfold requestBodyData
  sure_walk

macro_rules | `(tactic| sure_known) => `(tactic| exact requestBodyData_sure (by assumption) _)

theorem stateRequestStart_sure {e : Env} (hd : Definite e) : Sure (stateRequestStart e) := by
  unfold stateRequestStart
  sure_walk

macro_rules | `(tactic| sure_known) => `(tactic| exact stateRequestStart_sure (by assumption))

theorem stateRequestTrailer_sure {e : Env} (hd : Definite e) : Sure (stateRequestTrailer e) := by
  unfold stateRequestTrailer
  sure_walk

macro_rules | `(tactic| sure_known) => `(tactic| exact stateRequestTrailer_sure (by assumption))

theorem stateRequestHeadersDone_sure {e : Env} (hd : Definite e) : Sure (stateRequestHeadersDone e) := by
  unfold stateRequestHeadersDone
  sure_walk
  exact Tx.sure_processRequestHeaders _ _

macro_rules | `(tactic| sure_known) => `(tactic| exact stateRequestHeadersDone_sure (by assumption))

theorem stateRequestHeaders_sure {e : Env} (hd : Definite e) : Sure (stateRequestHeaders e) := by
  unfold stateRequestHeaders
  sure_walk

macro_rules | `(tactic| sure_known) => `(tactic| exact stateRequestHeaders_sure (by assumption))

theorem stateRequestLine_sure {e : Env} (hd : Definite e) : Sure (stateRequestLine e) := by
  unfold stateRequestLine
  sure_walk
  exact Tx.sure_parseRequestLine hd _

macro_rules | `(tactic| sure_known) => `(tactic| exact stateRequestLine_sure (by assumption))

theorem finalizeTx_sure {e : Env} (hd : Definite e) (i : Nat) : Sure (finalizeTx e i) := by
  unfold finalizeTx
  sure_walk

macro_rules | `(tactic| sure_known) => `(tactic| exact finalizeTx_sure (by assumption) _)

theorem completeRequest_sure {e : Env} (hd : Definite e) (t : Tx) : Sure (completeRequest e t) := by
  unfold completeRequest
  sure_walk

macro_rules | `(tactic| sure_known) => `(tactic| exact completeRequest_sure (by assumption) _)

theorem stateRequestComplete_sure {e : Env} (hd : Definite e) : Sure (stateRequestComplete e) := by
  unfold stateRequestComplete
  sure_walk

macro_rules | `(tactic| sure_known) => `(tactic| exact stateRequestComplete_sure (by assumption))

theorem requestConnectCheck_sure {e : Env} (_hd : Definite e) : Sure (requestConnectCheck e) := by
  unfold requestConnectCheck
  sure_walk

macro_rules | `(tactic| sure_known) => `(tactic| exact requestConnectCheck_sure (by assumption))

theorem requestConnectWaitResponse_sure {e : Env} (_hd : Definite e) : Sure (requestConnectWaitResponse e) := by
  unfold requestConnectWaitResponse
  sure_walk

macro_rules | `(tactic| sure_known) => `(tactic| exact requestConnectWaitResponse_sure (by assumption))

theorem requestChunkLine_sure {e : Env} (_hd : Definite e) (l : Bytes) : Sure (requestChunkLine e l) := by
  unfold requestChunkLine
  sure_walk

macro_rules | `(tactic| sure_known) => `(tactic| exact requestChunkLine_sure (by assumption) _)

theorem requestIdentityData_sure {e : Env} (hd : Definite e) (n : Nat) : Sure (requestIdentityData e n) := by
  unfold requestIdentityData
  sure_walk

macro_rules | `(tactic| sure_known) => `(tactic| exact requestIdentityData_sure (by assumption) _)

theorem requestBodyDetermine_sure {e : Env} (_hd : Definite e) : Sure (requestBodyDetermine e) := by
  unfold requestBodyDetermine
  sure_walk

macro_rules | `(tactic| sure_known) => `(tactic| exact requestBodyDetermine_sure (by assumption))

theorem requestHeadersClosed_sure {e : Env} (hd : Definite e) : Sure (requestHeadersClosed e) := by
  unfold requestHeadersClosed
  sure_walk

macro_rules | `(tactic| sure_known) => `(tactic| exact requestHeadersClosed_sure (by assumption))

theorem requestProtocol_sure {e : Env} (_hd : Definite e) : Sure (requestProtocol e) := by
  unfold requestProtocol
  sure_walk

macro_rules | `(tactic| sure_known) => `(tactic| exact requestProtocol_sure (by assumption))

theorem requestFinalizeLine_sure {e : Env} (hd : Definite e) (w : Bytes) : Sure (requestFinalizeLine e w) := by
  unfold requestFinalizeLine
  sure_walk

macro_rules | `(tactic| sure_known) => `(tactic| exact requestFinalizeLine_sure (by assumption) _)

/-! The handlers. -/

theorem requestConsume_all (s : Conn) (n : Nat) (h : s.input.len ≤ n) : (requestConsume n s).2.input.len = 0 := by
  rw [requestConsume_len]
  omega

theorem checkRequestBufferLimit_same_state {e : Env} {n : Nat} {s s' : Conn} {r : Except Err Unit}
    (h : checkRequestBufferLimit e n s = (r, s')) : s' = s := by
  have := checkRequestBufferLimit_post e s n
  unfold post at this
  rw [h] at this
  exact this.1.symm

theorem handleRequestAbsentLf_said (e : Env) (s : Conn) : post (handleRequestAbsentLf e) s Said := by
  unfold handleRequestAbsentLf
  refine Sure.bind_said Sure.state fun a s1 h1 => ?_
  cases h1
  refine Sure.bind_said Sure.checkRequestBufferLimit fun _ s2 h2 => ?_
  cases checkRequestBufferLimit_same_state h2
  refine post.bind_setReq (post.bind_consume (Said.empty ?_))
  exact requestConsume_all _ _ (Nat.le_refl _)

theorem requestConnectProbeData_said {e : Env} (hd : Definite e) (s : Conn) : post (requestConnectProbeData e) s Said := by
  unfold requestConnectProbeData
  refine Sure.bind_said Sure.state fun a s1 h1 => ?_
  split
  · exact Sure.said (by sure_walk) s1
  · exact handleRequestAbsentLf_said e s1

theorem requestBodyChunkedDataEnd_said (e : Env) (s : Conn) : post (requestBodyChunkedDataEnd e) s Said := by
  unfold requestBodyChunkedDataEnd
  refine Sure.bind_said Sure.requestTx fun t s1 _ => Sure.bind_said Sure.state fun a s2 _ => ?_
  split
  · exact Sure.said (by sure_walk) s2
  · exact Sure.bind_said Sure.putRequest fun _ s3 _ => handleRequestAbsentLf_said e s3

/-- A piece of a body is awaited. -/
structure ReqLive (s : Conn) : Prop where
  chunk : s.req.state = .bodyChunkedData → ∃ n, s.req.chunkedLength = some n ∧ 0 < n
  body : s.req.state = .bodyIdentity → ∃ n, s.req.bodyDataLeft = some n ∧ 0 < n

theorem requestBodyChunkedData_said {e : Env} (hd : Definite e) (s : Conn) (h : ∃ n, s.req.chunkedLength = some n ∧ 0 < n) :
    post (requestBodyChunkedData e) s Said := by
  obtain ⟨m, hm, hpos⟩ := h
  unfold requestBodyChunkedData
  refine post.bind_state ?_
  rw [hm]
  dsimp only [Option.getD]
  refine post.ite (fun hn => Said.failed (by omega)) fun hn => ?_
  refine Sure.bind_said Sure.inputPrefix fun d s1 h1 => ?_
  refine Sure.bind_said (by sure_walk) fun _ s2 h2 => ?_
  have k1 : Same s s1 := by have := inputPrefix_same (min s.input.len m) s; rw [h1] at this; exact this
  have k2 : Same s1 s2 := by have := requestBodyData_same e (some d) s1; rw [h2] at this; exact this
  have k := Same.pre.trans k1 k2
  obtain ⟨_, _, rfl⟩ := k
  refine post.bind_consume (post.bind_setReq (post.bind_state (post.ite (fun _ => Said.ok) fun hne => Said.empty ?_)))
  dsimp only
  refine requestConsume_all _ _ ?_
  dsimp only [requestConsume, M.modify] at hne
  rw [hm] at hne
  dsimp only [Option.map] at hne ⊢
  have : m - min s.input.len m ≠ 0 := fun h0 => hne (by rw [h0])
  omega

theorem requestChunkedLengthLoop_said {e : Env} (hd : Definite e) (d : Bytes) (s : Conn) :
    post (requestChunkedLengthLoop e d) s Said := by
  induction hl : d.length using Nat.strongRecOn generalizing d s with
  | ind n ih =>
    unfold requestChunkedLengthLoop
    split
    next remaining line hl2 =>
      have := takeTillIncl_shorter hl2
      refine Sure.bind_said Sure.requestConsume fun _ s1 _ => Sure.bind_said Sure.state fun _ s2 _ =>
        Sure.bind_said (by sure_walk) fun _ s3 _ => Sure.bind_said Sure.requestTx fun _ s4 _ => ?_
      refine post.ite (fun _ => ?_) fun _ => Sure.said (by sure_walk) s4
      exact Sure.bind_said Sure.putRequest fun _ s5 _ => ih remaining.length (by omega) remaining s5 rfl
    all_goals
      exact post.ite (fun _ => handleRequestAbsentLf_said e s) fun _ => Sure.said (by sure_walk) s

theorem requestBodyIdentity_said {e : Env} (hd : Definite e) (s : Conn) (h : ∃ n, s.req.bodyDataLeft = some n ∧ 0 < n) :
    post (requestBodyIdentity e) s Said := by
  obtain ⟨m, hm, hpos⟩ := h
  unfold requestBodyIdentity
  refine post.bind_state ?_
  rw [hm]
  dsimp only
  refine post.ite (fun hn => Said.failed (by omega)) fun hn => ?_
  refine Sure.bind_said (by sure_walk) fun _ s1 h1 => ?_
  have k : Same s s1 := by have := requestIdentityData_same e (min s.input.len m) s; rw [h1] at this; exact this
  obtain ⟨_, _, rfl⟩ := k
  refine post.bind_consume (post.bind_setReq (post.ite (fun hne => Said.empty ?_) fun _ => ?_))
  · dsimp only
    refine requestConsume_all _ _ ?_
    dsimp only
    omega
  · exact Sure.said (by sure_walk) _

theorem requestHeaders_said {e : Env} (hd : Definite e) (s : Conn) (hg : s.input.isGap = false) :
    post (requestHeaders e) s Said := by
  unfold requestHeaders
  refine post.bind_state (post.ite (fun _ => Sure.said (by sure_walk) s) fun _ => ?_)
  have hlen : s.input.len = s.input.asSlice.length := by
    unfold PData.isGap at hg
    unfold PData.len
    cases hgl : s.input.gapLen with
    | none => rfl
    | some g => rw [hgl] at hg; cases hg
  refine post.bind_setReq ?_
  refine Sure.bind_said Sure.withRequest fun _ s1 h1 => ?_
  have k : Same { s with req := { s.req with header := none } } s1 := by
    have := withRequest_same e (Tx.parseRequestHeaders · (s.req.header.getD [] ++ s.input.asSlice)) { s with req := { s.req with header := none } }
    rw [h1] at this
    exact this
  obtain ⟨_, _, rfl⟩ := k
  dsimp only
  refine post.ite (fun _ => Sure.said (by sure_walk) _) fun _ => ?_
  refine post.bind_consume ?_
  have h0 := requestConsume_all { s with req := { s.req with header := none } } s.input.asSlice.length (Nat.le_of_eq hlen)
  refine Sure.bind_said Sure.checkRequestBufferLimit fun _ s2 h2 => ?_
  cases checkRequestBufferLimit_same_state h2
  exact post.bind_setReq (Said.empty h0)

theorem requestLineComplete_said {e : Env} (hd : Definite e) (s : Conn) (l : Bytes) (h : l = [] → s.input.len = 0) :
    post (requestLineComplete e l) s Said := by
  unfold requestLineComplete
  refine Sure.bind_said Sure.checkRequestBufferLimit fun _ s2 h2 => ?_
  cases checkRequestBufferLimit_same_state h2
  refine post.ite (fun hl => Said.empty (h hl)) fun _ => Sure.said (by sure_walk) _

theorem requestLine_said {e : Env} (hd : Definite e) (s : Conn) : post (requestLine e) s Said := by
  unfold requestLine
  refine post.bind_state ?_
  split
  next rest line hl =>
    have hpos := (takeTillIncl_split hl).2.2.2
    refine post.bind_setReq (post.bind_consume (requestLineComplete_said hd _ _ fun h0 => ?_))
    rw [List.append_eq_nil_iff] at h0
    rw [h0.2] at hpos
    simp at hpos
  · refine post.ite (fun _ => ?_) fun _ => handleRequestAbsentLf_said e s
    refine post.bind_setReq (post.bind_consume (requestLineComplete_said hd _ _ fun _ => ?_))
    exact requestConsume_all _ _ (Nat.le_refl _)

theorem requestFinalize_said {e : Env} (hd : Definite e) (s : Conn) : post (requestFinalize e) s Said := by
  unfold requestFinalize
  refine post.bind_state (post.ite (fun _ => Sure.said (by sure_walk) s) fun _ => post.ite (fun _ => Sure.said (by sure_walk) s) fun _ =>
    post.ite (fun _ => Sure.said (by sure_walk) s) fun _ => ?_)
  split
  · exact Sure.said (by sure_walk) s
  · exact handleRequestAbsentLf_said e s

theorem requestIgnoreDataAfterHttp09_said (s : Conn) : post requestIgnoreDataAfterHttp09 s Said := by
  unfold requestIgnoreDataAfterHttp09
  refine post.bind_state (post.bind (post.when (fun _ => post.modify ?_) fun _ => ?_))
  · exact post.bind_consume (Said.empty (requestConsume_all _ _ (Nat.le_refl _)))
  · exact post.bind_consume (Said.empty (requestConsume_all _ _ (Nat.le_refl _)))

theorem requestIdle_said (e : Env) (s : Conn) : post (requestIdle e) s Said := by
  unfold requestIdle
  refine post.bind_state (post.ite (fun h => Said.failed ?_) fun _ => ?_)
  · have := h.1
    unfold PData.isEmpty at this
    simpa using this
  · exact Sure.said (Sure.bind Sure.modify fun _ => Sure.bind Sure.attempt fun _ => Sure.pure) s

theorem handleRequestState_said {e : Env} (hd : Definite e) (s : Conn) (hl : ReqLive s)
    (hg : (s.input.isGap && !requestGapState s.req.state) = false) : post (handleRequestState e) s Said := by
  unfold handleRequestState
  refine post.bind_state ?_
  have hgap : ∀ {st}, s.req.state = st → requestGapState st = false → s.input.isGap = false := by
    intro st hst h
    rw [hst, h] at hg
    simpa using hg
  split
  · exact requestIdle_said e s
  · exact requestIgnoreDataAfterHttp09_said s
  · exact requestLine_said hd s
  · exact Sure.said (by sure_walk) s
  · exact requestHeaders_said hd s (hgap (by assumption) rfl)
  · exact Sure.said (by sure_walk) s
  · exact Sure.said (by sure_walk) s
  · exact requestConnectProbeData_said hd s
  · exact Sure.said (by sure_walk) s
  · exact requestBodyChunkedData_said hd s (hl.chunk (by assumption))
  · exact Sure.bind_said Sure.state fun _ s1 _ => requestChunkedLengthLoop_said hd _ s1
  · exact requestBodyChunkedDataEnd_said e s
  · exact requestBodyIdentity_said hd s (hl.body (by assumption))
  · exact requestFinalize_said hd s
  all_goals exact Sure.said (by sure_walk) s

end Model

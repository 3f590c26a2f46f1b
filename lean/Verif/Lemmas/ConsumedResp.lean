/-
The response machine asks for more data only when it has used up the chunk, except in a gap of a body that
ends with the stream.
-/
import Verif.Lemmas.ConsumedReq

namespace Model

open M Spec

theorem responseReceiverSendData_sure {e : Env} (hd : Definite e) : Sure (responseReceiverSendData e) := by
  unfold responseReceiverSendData
  sure_walk

macro_rules | `(tactic| sure_known) => `(tactic| exact responseReceiverSendData_sure (by assumption))

theorem responseReceiverFinalizeClear_sure {e : Env} (hd : Definite e) : Sure (responseReceiverFinalizeClear e) := by
  unfold responseReceiverFinalizeClear
  refine Sure.bind Sure.state fun s => ?_
  split
  · exact Sure.pure
  · exact Sure.bind_attempt (responseReceiverSendData_sure hd) fun rc hrc => Sure.bind Sure.setResp fun _ => Sure.ofExcept hrc

macro_rules | `(tactic| sure_known) => `(tactic| exact responseReceiverFinalizeClear_sure (by assumption))

theorem responseSetReceiver_sure {e : Env} (_hd : Definite e) : Sure (responseSetReceiver e) := by
  unfold responseSetReceiver
  sure_walk

macro_rules | `(tactic| sure_known) => `(tactic| exact responseSetReceiver_sure (by assumption))

theorem responseHandleStateChange_sure {e : Env} (hd : Definite e) : Sure (responseHandleStateChange e) := by
  unfold responseHandleStateChange
  sure_walk

macro_rules | `(tactic| sure_known) => `(tactic| exact responseHandleStateChange_sure (by assumption))

theorem responseRunHookBodyData_sure {e : Env} (hd : Definite e) (d : PData) : Sure (responseRunHookBodyData e d) := by
  unfold responseRunHookBodyData
  sure_walk

macro_rules | `(tactic| sure_known) => `(tactic| exact responseRunHookBodyData_sure (by assumption) _)

theorem responseDecompressorCallback_sure {e : Env} (hd : Definite e) (o : Option Bytes) : Sure (responseDecompressorCallback e o) := by
  unfold responseDecompressorCallback
  sure_walk

macro_rules | `(tactic| sure_known) => `(tactic| exact responseDecompressorCallback_sure (by assumption) _)

theorem responseDecompress_sure {e : Env} (_hd : Definite e) (o : Option Bytes) : Sure (responseDecompress e o) := by
  unfold responseDecompress
  sure_walk

macro_rules | `(tactic| sure_known) => `(tactic| exact responseDecompress_sure (by assumption) _)

theorem responsePlainBody_sure {e : Env} (hd : Definite e) (o : Option Bytes) : Sure (responsePlainBody e o) := by
  unfold responsePlainBody
  sure_walk

macro_rules | `(tactic| sure_known) => `(tactic| exact responsePlainBody_sure (by assumption) _)

theorem responseBodyData_sure {e : Env} (hd : Definite e) (o : Option Bytes) : Sure (responseBodyData e o) := by
  unfold responseBodyData
  sure_walk

macro_rules | `(tactic| sure_known) => `(tactic| exact responseBodyData_sure (by assumption) _)

theorem stateResponseStart_sure {e : Env} (hd : Definite e) : Sure (stateResponseStart e) := by
  unfold stateResponseStart
  sure_walk

macro_rules | `(tactic| sure_known) => `(tactic| exact stateResponseStart_sure (by assumption))

theorem stateResponseHeaders_sure {e : Env} (hd : Definite e) : Sure (stateResponseHeaders e) := by
  unfold stateResponseHeaders
  sure_walk

macro_rules | `(tactic| sure_known) => `(tactic| exact stateResponseHeaders_sure (by assumption))

theorem stateResponseLine_sure {e : Env} (hd : Definite e) : Sure (stateResponseLine e) := by
  unfold stateResponseLine
  sure_walk

macro_rules | `(tactic| sure_known) => `(tactic| exact stateResponseLine_sure (by assumption))

theorem requestParserCheckWaiting_sure : Sure requestParserCheckWaiting := by
  unfold requestParserCheckWaiting
  sure_walk

macro_rules | `(tactic| sure_known) => `(tactic| exact requestParserCheckWaiting_sure)

theorem unblockRequest_sure : Sure unblockRequest := Sure.setReq

macro_rules | `(tactic| sure_known) => `(tactic| exact unblockRequest_sure)

theorem responseSwitch_sure : Sure responseSwitch := Sure.modify

macro_rules | `(tactic| sure_known) => `(tactic| exact responseSwitch_sure)

theorem completeResponse_sure {e : Env} (hd : Definite e) (t : Tx) : Sure (completeResponse e t) := by
  unfold completeResponse
  sure_walk

macro_rules | `(tactic| sure_known) => `(tactic| exact completeResponse_sure (by assumption) _)

theorem stateResponseComplete_sure {e : Env} (hd : Definite e) : Sure (stateResponseComplete e) := by
  unfold stateResponseComplete
  sure_walk

macro_rules | `(tactic| sure_known) => `(tactic| exact stateResponseComplete_sure (by assumption))

theorem responseChunkLine_sure {e : Env} (_hd : Definite e) (l : Bytes) : Sure (responseChunkLine e l) := by
  unfold responseChunkLine
  sure_walk

macro_rules | `(tactic| sure_known) => `(tactic| exact responseChunkLine_sure (by assumption) _)

theorem responseIdentityData_sure {e : Env} (hd : Definite e) (n : Nat) : Sure (responseIdentityData e n) := by
  unfold responseIdentityData
  sure_walk

macro_rules | `(tactic| sure_known) => `(tactic| exact responseIdentityData_sure (by assumption) _)

theorem responseConnect_sure {e : Env} (_hd : Definite e) : Sure (responseConnect e) := by
  unfold responseConnect
  sure_walk

macro_rules | `(tactic| sure_known) => `(tactic| exact responseConnect_sure (by assumption))

theorem responseContinue_sure {e : Env} (_hd : Definite e) : Sure (responseContinue e) := by
  unfold responseContinue
  sure_walk

macro_rules | `(tactic| sure_known) => `(tactic| exact responseContinue_sure (by assumption))

theorem responseExpect_sure {e : Env} (_hd : Definite e) : Sure (responseExpect e) := by
  unfold responseExpect
  sure_walk

macro_rules | `(tactic| sure_known) => `(tactic| exact responseExpect_sure (by assumption))

theorem responseInterim_sure {e : Env} (hd : Definite e) (te : Option Header) (cl : Option Header) : Sure (responseInterim e te cl) := by
  unfold responseInterim
  sure_walk

macro_rules | `(tactic| sure_known) => `(tactic| exact responseInterim_sure (by assumption) _ _)

theorem responseNoBody_sure {e : Env} (_hd : Definite e) (te : Option Header) (cl : Option Header) : Sure (responseNoBody e te cl) := by
  unfold responseNoBody
  sure_walk

macro_rules | `(tactic| sure_known) => `(tactic| exact responseNoBody_sure (by assumption) _ _)

theorem responseChunked_sure {e : Env} (_hd : Definite e) (cl : Option Header) : Sure (responseChunked e cl) := by
  unfold responseChunked
  sure_walk

macro_rules | `(tactic| sure_known) => `(tactic| exact responseChunked_sure (by assumption) _)

theorem responseLength_sure {e : Env} (_hd : Definite e) (cl : Header) : Sure (responseLength e cl) := by
  unfold responseLength
  sure_walk

macro_rules | `(tactic| sure_known) => `(tactic| exact responseLength_sure (by assumption) _)

theorem responseUntilClose_sure {e : Env} (_hd : Definite e) (b : Bool) : Sure (responseUntilClose e b) := by
  unfold responseUntilClose
  sure_walk

macro_rules | `(tactic| sure_known) => `(tactic| exact responseUntilClose_sure (by assumption) _)

theorem responseFraming_sure {e : Env} (hd : Definite e) (te : Option Header) (cl : Option Header) : Sure (responseFraming e te cl) := by
  unfold responseFraming
  sure_walk

macro_rules | `(tactic| sure_known) => `(tactic| exact responseFraming_sure (by assumption) _ _)

theorem responseBody_sure {e : Env} (hd : Definite e) (te : Option Header) (cl : Option Header) : Sure (responseBody e te cl) := by
  unfold responseBody
  sure_walk

macro_rules | `(tactic| sure_known) => `(tactic| exact responseBody_sure (by assumption) _ _)

theorem responseDetermineRest_sure {e : Env} (hd : Definite e) : Sure (responseDetermineRest e) := by
  unfold responseDetermineRest
  sure_walk

macro_rules | `(tactic| sure_known) => `(tactic| exact responseDetermineRest_sure (by assumption))

theorem responseBodyDetermine_sure {e : Env} (hd : Definite e) : Sure (responseBodyDetermine e) := by
  unfold responseBodyDetermine
  sure_walk

macro_rules | `(tactic| sure_known) => `(tactic| exact responseBodyDetermine_sure (by assumption))

theorem responseLineAsBody_sure {e : Env} (hd : Definite e) (l : Bytes) : Sure (responseLineAsBody e l) := by
  unfold responseLineAsBody
  sure_walk

macro_rules | `(tactic| sure_known) => `(tactic| exact responseLineAsBody_sure (by assumption) _)

theorem responseLineRead_sure {e : Env} (hd : Definite e) (l : Bytes) : Sure (responseLineRead e l) := by
  unfold responseLineRead
  sure_walk

macro_rules | `(tactic| sure_known) => `(tactic| exact responseLineRead_sure (by assumption) _)

theorem responseTrailer_sure {e : Env} (hd : Definite e) : Sure (responseTrailer e) := by
  unfold responseTrailer
  sure_walk

macro_rules | `(tactic| sure_known) => `(tactic| exact responseTrailer_sure (by assumption))

theorem responseHeadersClosed_sure {e : Env} (hd : Definite e) : Sure (responseHeadersClosed e) := by
  unfold responseHeadersClosed
  sure_walk

macro_rules | `(tactic| sure_known) => `(tactic| exact responseHeadersClosed_sure (by assumption))

theorem responseHeadersDone_sure {e : Env} (hd : Definite e) : Sure (responseHeadersDone e) := by
  unfold responseHeadersDone
  sure_walk

macro_rules | `(tactic| sure_known) => `(tactic| exact responseHeadersDone_sure (by assumption))

theorem responseFinalizeLine_sure {e : Env} (hd : Definite e) (w : Bytes) : Sure (responseFinalizeLine e w) := by
  unfold responseFinalizeLine
  sure_walk

macro_rules | `(tactic| sure_known) => `(tactic| exact responseFinalizeLine_sure (by assumption) _)

theorem responseWithoutRequest_sure {e : Env} (_hd : Definite e) (t : Tx) : Sure (responseWithoutRequest e t) := by
  unfold responseWithoutRequest
  sure_walk

macro_rules | `(tactic| sure_known) => `(tactic| exact responseWithoutRequest_sure (by assumption) _)


/-! The handlers. -/

theorem responseConsume_all (s : Conn) (n : Nat) (h : s.input.len ≤ n) : (responseConsume n s).2.input.len = 0 := by
  rw [responseConsume_len]
  omega

theorem checkResponseBufferLimit_same_state {e : Env} {n : Nat} {s s' : Conn} {r : Except Err Unit}
    (h : checkResponseBufferLimit e n s = (r, s')) : s' = s := by
  have := checkResponseBufferLimit_post e s n
  unfold post at this
  rw [h] at this
  exact this.1.symm

theorem handleResponseAbsentLf_said (e : Env) (s : Conn) : post (handleResponseAbsentLf e) s Said := by
  unfold handleResponseAbsentLf
  refine Sure.bind_said Sure.state fun a s1 h1 => ?_
  cases h1
  refine Sure.bind_said Sure.checkResponseBufferLimit fun _ s2 h2 => ?_
  cases checkResponseBufferLimit_same_state h2
  refine post.bind_setResp (post.bind_consume' (Said.empty ?_))
  exact responseConsume_all _ _ (Nat.le_refl _)

theorem responseBodyChunkedDataEnd_said (e : Env) (s : Conn) : post (responseBodyChunkedDataEnd e) s Said := by
  unfold responseBodyChunkedDataEnd
  refine Sure.bind_said Sure.responseTx fun t s1 _ => post.bind_state ?_
  split
  · exact Sure.said (by sure_walk) s1
  · exact post.bind_modify (post.bind_consume' (Said.empty (responseConsume_all _ _ (Nat.le_refl _))))

/-- A piece of a body is awaited. -/
structure RespLive (s : Conn) : Prop where
  chunk : s.resp.state = .bodyChunkedData → ∃ n, s.resp.chunkedLength = some n ∧ 0 < n
  body : s.resp.state = .bodyIdentityClKnown → ∃ n, s.resp.bodyDataLeft = some n ∧ 0 < n

theorem responseBodyChunkedData_said {e : Env} (hd : Definite e) (s : Conn) (h : ∃ n, s.resp.chunkedLength = some n ∧ 0 < n) :
    post (responseBodyChunkedData e) s Said := by
  obtain ⟨m, hm, hpos⟩ := h
  unfold responseBodyChunkedData
  refine post.bind_state ?_
  rw [hm]
  dsimp only [Option.getD]
  refine post.ite (fun hn => Said.failed (by omega)) fun hn => ?_
  refine Sure.bind_said Sure.inputPrefix fun d s1 h1 => ?_
  refine Sure.bind_said (by sure_walk) fun _ s2 h2 => ?_
  have k1 : Same s s1 := by have := inputPrefix_same (min s.input.len m) s; rw [h1] at this; exact this
  have k2 : Same s1 s2 := by have := responseBodyData_same e (some d) s1; rw [h2] at this; exact this
  have k := Same.pre.trans k1 k2
  obtain ⟨_, _, rfl⟩ := k
  refine post.bind_consume' (post.bind_setResp (post.bind_state (post.ite (fun _ => Said.ok) fun hne => Said.empty ?_)))
  dsimp only
  refine responseConsume_all _ _ ?_
  dsimp only [responseConsume, M.modify] at hne
  rw [hm] at hne
  dsimp only [Option.map] at hne ⊢
  have : m - min s.input.len m ≠ 0 := fun h0 => hne (by rw [h0])
  omega

theorem responseChunkedLengthLoop_said {e : Env} (hd : Definite e) (d : Bytes) (s : Conn) :
    post (responseChunkedLengthLoop e d) s Said := by
  induction hl : d.length using Nat.strongRecOn generalizing d s with
  | ind n ih =>
    unfold responseChunkedLengthLoop
    refine Sure.bind_said Sure.responseTx fun t s _ => ?_
    split
    next remaining line hl2 =>
      have := takeTillIncl_shorter hl2
      refine Sure.bind_said Sure.responseConsume fun _ s1 _ => Sure.bind_said Sure.state fun _ s2 _ =>
        Sure.bind_said (by sure_walk) fun _ s4 _ => ?_
      refine post.ite (fun _ => ?_) fun _ => Sure.said (by sure_walk) s4
      exact Sure.bind_said Sure.putResponse fun _ s5 _ => ih remaining.length (by omega) remaining s5 rfl
    all_goals
      exact post.ite (fun _ => handleResponseAbsentLf_said e s) fun _ => Sure.said (by sure_walk) s

theorem responseIdentityOpen_said {e : Env} (hd : Definite e) (s : Conn) (h : ∃ n, s.resp.bodyDataLeft = some n ∧ 0 < n) :
    post (responseIdentityOpen e) s Said := by
  obtain ⟨m, hm, hpos⟩ := h
  unfold responseIdentityOpen
  refine post.bind_state ?_
  rw [hm]
  dsimp only
  refine post.ite (fun hn => Said.failed (by omega)) fun hn => ?_
  refine Sure.bind_said (by sure_walk) fun _ s1 h1 => ?_
  have k : Same s s1 := by have := responseIdentityData_same e (min s.input.len m) s; rw [h1] at this; exact this
  obtain ⟨_, _, rfl⟩ := k
  refine post.bind_consume' (post.bind_setResp (post.ite (fun hne => Said.empty ?_) fun _ => ?_))
  · dsimp only
    refine responseConsume_all _ _ ?_
    dsimp only
    omega
  · exact Sure.said (by sure_walk) _

theorem responseBodyIdentityClKnown_said {e : Env} (hd : Definite e) (s : Conn)
    (h : ∃ n, s.resp.bodyDataLeft = some n ∧ 0 < n) : post (responseBodyIdentityClKnown e) s Said := by
  unfold responseBodyIdentityClKnown
  refine post.bind_state (post.ite (fun _ => Sure.said (by sure_walk) s) fun _ => responseIdentityOpen_said hd s h)

theorem responseBodyIdentityStreamClose_said {e : Env} (hd : Definite e) (s : Conn) (hg : s.input.isGap = false) :
    post (responseBodyIdentityStreamClose e) s Said := by
  have hs : Sure (responseStreamData e) := by
    unfold responseStreamData
    sure_walk
  unfold responseBodyIdentityStreamClose
  refine Sure.bind_said hs fun u s1 h1 => post.bind_state (post.ite (fun _ => Said.ok) fun _ => Said.failed ?_)
  unfold responseStreamData at h1
  rw [M.bind_state, if_neg (by rw [hg]; exact Bool.false_ne_true)] at h1
  split at h1
  · rename_i h0
    cases h1
    unfold PData.isEmpty at h0
    simpa using h0
  · have k := responseBodyData_same e s.input.unconsumed s
    cases hb : responseBodyData e s.input.unconsumed s with
    | mk r s2 =>
      rw [hb] at k
      cases r with
      | error x => rw [M.bind_error hb] at h1; cases h1
      | ok u =>
        rw [M.bind_ok hb] at h1
        obtain ⟨_, _, rfl⟩ := k
        cases h1
        exact responseConsume_all s s.input.len (Nat.le_refl _)

theorem responseHeaders_said {e : Env} (hd : Definite e) (s : Conn) : post (responseHeaders e) s Said := by
  unfold responseHeaders
  refine post.bind_state (post.ite (fun _ => Sure.said (by sure_walk) s) fun _ => ?_)
  refine post.bind_setResp ?_
  refine Sure.bind_said Sure.withResponse fun _ s1 h1 => ?_
  have k : Same { s with resp := { s.resp with header := none } } s1 := by
    have := withResponse_same e (Tx.parseResponseHeaders · (s.resp.header.getD [] ++ s.input.asSlice)) { s with resp := { s.resp with header := none } }
    rw [h1] at this
    exact this
  obtain ⟨_, _, rfl⟩ := k
  dsimp only
  refine post.ite (fun _ => Sure.said (by sure_walk) _) fun _ => ?_
  refine post.bind_consume' ?_
  have h0 := responseConsume_all { s with resp := { s.resp with header := none } } s.input.len (Nat.le_refl _)
  refine Sure.bind_said Sure.checkResponseBufferLimit fun _ s2 h2 => ?_
  cases checkResponseBufferLimit_same_state h2
  exact post.bind_setResp (Said.empty h0)

theorem responseLineComplete_said {e : Env} (hd : Definite e) (s : Conn) (l : Bytes) (h : l = [] → s.input.len = 0) :
    post (responseLineComplete e l) s Said := by
  unfold responseLineComplete
  refine Sure.bind_said Sure.checkResponseBufferLimit fun _ s2 h2 => ?_
  cases checkResponseBufferLimit_same_state h2
  refine post.ite (fun hl => Said.empty (h hl)) fun _ => Sure.said (by sure_walk) _

theorem responseLine_said {e : Env} (hd : Definite e) (s : Conn) : post (responseLine e) s Said := by
  unfold responseLine
  refine post.bind_state ?_
  split
  next rest line _ hl =>
    have hpos := (takeTillEol_split hl).2.2.2
    refine post.bind_setResp (post.bind_consume' (responseLineComplete_said hd _ _ fun h0 => ?_))
    rw [List.append_eq_nil_iff] at h0
    rw [h0.2] at hpos
    simp at hpos
  · refine post.ite (fun _ => ?_) fun _ => handleResponseAbsentLf_said e s
    refine post.bind_setResp (post.bind_consume' (responseLineComplete_said hd _ _ fun _ => ?_))
    exact responseConsume_all _ _ (Nat.le_refl _)

theorem responseFinalize_said {e : Env} (hd : Definite e) (s : Conn) : post (responseFinalize e) s Said := by
  unfold responseFinalize
  refine post.bind_state (post.ite (fun _ => Sure.said (by sure_walk) s) fun _ => post.ite (fun _ => Sure.said (by sure_walk) s) fun _ => ?_)
  split
  · exact Sure.said (by sure_walk) s
  · refine post.ite (fun _ => Sure.said (by sure_walk) s) fun _ => ?_
    split
    · exact Sure.said (by sure_walk) s
    · exact handleResponseAbsentLf_said e s

theorem responseIdle_said {e : Env} (hd : Definite e) (s : Conn) : post (responseIdle e) s Said := by
  unfold responseIdle
  refine post.bind_state (post.ite (fun h => Said.failed ?_) fun _ => Sure.said (by sure_walk) s)
  unfold PData.isEmpty at h
  simpa using h

/-- The gap in a body that ends with the stream is left out. -/
theorem handleResponseState_said {e : Env} (hd : Definite e) (s : Conn) (hl : RespLive s)
    (hg : s.input.isGap = true → s.resp.state ≠ .bodyIdentityStreamClose) : post (handleResponseState e) s Said := by
  unfold handleResponseState
  refine post.bind_state ?_
  split <;> rename_i hst
  · exact responseIdle_said hd s
  · exact responseLine_said hd s
  · exact responseHeaders_said hd s
  · exact Sure.said (by sure_walk) s
  · exact responseBodyChunkedData_said hd s (hl.chunk hst)
  · exact Sure.bind_said Sure.state fun _ s1 _ => responseChunkedLengthLoop_said hd _ s1
  · exact responseBodyChunkedDataEnd_said e s
  · exact responseFinalize_said hd s
  · refine responseBodyIdentityStreamClose_said hd s ?_
    cases h : s.input.isGap with
    | false => rfl
    | true => exact absurd hst (hg h)
  · exact responseBodyIdentityClKnown_said hd s (hl.body hst)
  all_goals exact Sure.said (by sure_walk) s

end Model

/-
The invariants of the request side of the connection parser (consumed bytes, buffered bytes) and the
measure that makes its loop end.
-/
import Verif.Lemmas.ConnReqFrame

namespace Model

open M

/-- The number of bytes of a chunk, consumed or not. -/
def PData.total (d : PData) : Nat :=
  match d.gapLen with
  | some g => g
  | none => (d.data.getD []).length

/-- A chunk is data or a gap. -/
def PData.WF (d : PData) : Prop := d.gapLen.isSome → d.data = none

theorem PData.len_eq (d : PData) : d.len = d.total - d.position := by
  unfold PData.len PData.total PData.asSlice
  cases d.gapLen with
  | some g => dsimp only; split <;> omega
  | none =>
    dsimp only
    cases d.data with
    | none => simp
    | some b =>
      dsimp only [Option.getD]
      split
      · simp
      · simp only [List.length_nil]; omega

theorem PData.WF.asSlice_le {d : PData} (h : d.WF) : d.asSlice.length ≤ d.len := by
  unfold PData.len
  cases hg : d.gapLen with
  | some g =>
    have : d.data = none := h (by simp [hg])
    simp [PData.asSlice, this]
  | none => simp

theorem PData.consume_total (d : PData) (n : Nat) : (d.consume n).total = d.total := rfl

theorem PData.unconsume_total (d : PData) (n : Nat) : (d.unconsume n).total = d.total := by
  unfold PData.unconsume; split <;> rfl

theorem PData.unconsume_position (d : PData) (n : Nat) : (d.unconsume n).position = d.position - n := by
  unfold PData.unconsume
  split
  · rfl
  · dsimp only; omega

theorem PData.unconsume_data (d : PData) (n : Nat) : (d.unconsume n).data = d.data := by
  unfold PData.unconsume; split <;> rfl

theorem PData.unconsume_gapLen (d : PData) (n : Nat) : (d.unconsume n).gapLen = d.gapLen := by
  unfold PData.unconsume; split <;> rfl

/-- The unread data after consuming its beginning. -/
theorem PData.consume_asSlice {d : PData} {n : Nat} (h : n ≤ d.asSlice.length) :
    (d.consume n).asSlice = d.asSlice.drop n := by
  unfold PData.asSlice PData.consume at *
  cases hd : d.data with
  | none => simp
  | some b =>
    simp only [hd] at h ⊢
    by_cases hp : d.position ≤ b.length
    · simp only [hp, if_true, List.length_drop] at h
      rw [if_pos (by omega), if_pos hp, List.drop_drop]
    · simp only [hp, if_false, List.length_nil] at h
      have : n = 0 := by omega
      subst this
      simp [hp]

/-- The rule for a sequence whose first part is known only by a relation. -/
theorem post.bind_rel {α β : Type} {R : Conn → Conn → Prop} {m : M α} {f : α → M β} {s : Conn}
    {Q : Except Err β → Conn → Prop} (h : Rel R m)
    (ok : ∀ a s', R s s' → post (f a) s' Q) (err : ∀ x s', R s s' → Q (.error x) s') :
    post (m >>= f) s Q := by
  refine post.bind ((h.post s).mono fun r s' hr => ?_)
  cases r with
  | ok a => exact ok a s' hr
  | error x => exact err x s' hr

/-- Only the state, the previous state, the receiver and the body counters of the request side change;
the window does not move. -/
structure ReqKept (s s' : Conn) : Prop where
  buf : s'.req.buf = s.req.buf
  header : s'.req.header = s.req.header
  consumed : s'.req.bytesConsumed = s.req.bytesConsumed
  status : s'.req.status = .closed → s.req.status = .closed
  position : s'.input.position = s.input.position
  data : s'.input.data = s.input.data
  gap : s'.input.gapLen = s.input.gapLen

theorem ReqKept.pre : Pre ReqKept where
  refl _ := ⟨rfl, rfl, rfl, id, rfl, rfl, rfl⟩
  trans h h' := ⟨h'.1.trans h.1, h'.2.trans h.2, h'.3.trans h.3, fun x => h.4 (h'.4 x),
    h'.5.trans h.5, h'.6.trans h.6, h'.7.trans h.7⟩

theorem Same.reqKept {s s' : Conn} (h : Same s s') : ReqKept s s' := by
  obtain ⟨m, evs, rfl⟩ := h
  exact ⟨rfl, rfl, rfl, id, rfl, rfl, rfl⟩

theorem Rel.reqKept {α : Type} {m : M α} (h : Rel Same m) : Rel ReqKept m := fun s => (h s).reqKept

macro_rules | `(tactic| rel_pre) => `(tactic| exact ReqKept.pre)
macro_rules | `(tactic| rel_known) => `(tactic| (refine Rel.reqKept ?_; rel_known))

/-- Closes the primitive changes. -/
macro "kept_leaf" : tactic => `(tactic| exact ⟨rfl, rfl, rfl, id, rfl, rfl, rfl⟩)

theorem requestNext_kept (e : Env) : Rel ReqKept (requestNext e) := fun _ => by kept_leaf

macro_rules | `(tactic| rel_known) => `(tactic| exact requestNext_kept _)

theorem requestReceiverSendData_kept (e : Env) : Rel ReqKept (requestReceiverSendData e) := by
  unfold requestReceiverSendData
  rel_walk
  exact ⟨rfl, rfl, rfl, id, callbackData_position _, callbackData_data _, callbackData_gap _⟩

macro_rules | `(tactic| rel_known) => `(tactic| exact requestReceiverSendData_kept _)

theorem requestReceiverFinalizeClear_kept (e : Env) : Rel ReqKept (requestReceiverFinalizeClear e) := by
  unfold requestReceiverFinalizeClear
  rel_walk <;> kept_leaf

macro_rules | `(tactic| rel_known) => `(tactic| exact requestReceiverFinalizeClear_kept _)

theorem requestSetReceiver_kept (e : Env) : Rel ReqKept (requestSetReceiver e) := by
  unfold requestSetReceiver
  rel_walk <;> kept_leaf

macro_rules | `(tactic| rel_known) => `(tactic| exact requestSetReceiver_kept _)

theorem requestHandleStateChange_kept (e : Env) : Rel ReqKept (requestHandleStateChange e) := by
  unfold requestHandleStateChange
  rel_walk <;> kept_leaf

macro_rules | `(tactic| rel_known) => `(tactic| exact requestHandleStateChange_kept _)

theorem stateRequestStart_kept (e : Env) : Rel ReqKept (stateRequestStart e) := by
  unfold stateRequestStart
  rel_walk <;> kept_leaf

theorem stateRequestTrailer_kept (e : Env) : Rel ReqKept (stateRequestTrailer e) := by
  unfold stateRequestTrailer
  rel_walk <;> kept_leaf

theorem stateRequestHeadersDone_kept (e : Env) : Rel ReqKept (stateRequestHeadersDone e) := by
  unfold stateRequestHeadersDone
  rel_walk <;> kept_leaf

macro_rules | `(tactic| rel_known) => `(tactic| exact stateRequestStart_kept _)
macro_rules | `(tactic| rel_known) => `(tactic| exact stateRequestTrailer_kept _)
macro_rules | `(tactic| rel_known) => `(tactic| exact stateRequestHeadersDone_kept _)

theorem stateRequestHeaders_kept (e : Env) : Rel ReqKept (stateRequestHeaders e) := by
  unfold stateRequestHeaders
  rel_walk

theorem stateRequestLine_kept (e : Env) : Rel ReqKept (stateRequestLine e) := by
  unfold stateRequestLine
  rel_walk <;> kept_leaf

theorem completeRequest_kept (e : Env) (t : Tx) : Rel ReqKept (completeRequest e t) := by
  unfold completeRequest
  rel_walk

macro_rules | `(tactic| rel_known) => `(tactic| exact stateRequestHeaders_kept _)
macro_rules | `(tactic| rel_known) => `(tactic| exact stateRequestLine_kept _)
macro_rules | `(tactic| rel_known) => `(tactic| exact completeRequest_kept _ _)

theorem stateRequestComplete_kept (e : Env) : Rel ReqKept (stateRequestComplete e) := by
  unfold stateRequestComplete
  rel_walk <;> kept_leaf

macro_rules | `(tactic| rel_known) => `(tactic| exact stateRequestComplete_kept _)

theorem requestConnectCheck_kept (e : Env) : Rel ReqKept (requestConnectCheck e) := by
  unfold requestConnectCheck
  rel_walk
  · exact ⟨rfl, rfl, rfl, by simp, rfl, rfl, rfl⟩
  · kept_leaf

theorem requestConnectWaitResponse_kept (e : Env) : Rel ReqKept (requestConnectWaitResponse e) := by
  unfold requestConnectWaitResponse
  rel_walk <;> kept_leaf

theorem requestChunkLine_kept (e : Env) (l : Bytes) : Rel ReqKept (requestChunkLine e l) := by
  unfold requestChunkLine
  rel_walk <;> kept_leaf

theorem requestBodyDetermine_kept (e : Env) : Rel ReqKept (requestBodyDetermine e) := by
  unfold requestBodyDetermine
  rel_walk <;> kept_leaf

theorem requestProtocol_kept (e : Env) : Rel ReqKept (requestProtocol e) := by
  unfold requestProtocol
  rel_walk <;> kept_leaf

theorem requestLineComplete_kept (e : Env) (l : Bytes) : Rel ReqKept (requestLineComplete e l) := by
  unfold requestLineComplete
  rel_walk

theorem requestReset_kept : Rel ReqKept requestReset := by
  unfold requestReset
  rel_walk <;> kept_leaf

macro_rules | `(tactic| rel_known) => `(tactic| exact requestReset_kept)

theorem requestIdle_kept (e : Env) : Rel ReqKept (requestIdle e) := by
  unfold requestIdle
  rel_walk

macro_rules | `(tactic| rel_known) => `(tactic| exact requestConnectCheck_kept _)
macro_rules | `(tactic| rel_known) => `(tactic| exact requestConnectWaitResponse_kept _)
macro_rules | `(tactic| rel_known) => `(tactic| exact requestChunkLine_kept _ _)
macro_rules | `(tactic| rel_known) => `(tactic| exact requestBodyDetermine_kept _)
macro_rules | `(tactic| rel_known) => `(tactic| exact requestProtocol_kept _)
macro_rules | `(tactic| rel_known) => `(tactic| exact requestLineComplete_kept _ _)
macro_rules | `(tactic| rel_known) => `(tactic| exact requestIdle_kept _)

/-! The state of the request side. -/

/-- The state of the request side is the same. -/
def ReqSt (s s' : Conn) : Prop := s'.req.state = s.req.state

theorem ReqSt.pre : Pre ReqSt where
  refl _ := rfl
  trans h h' := Eq.trans h' h

theorem Rel.reqSt {α : Type} {m : M α} (h : Rel Same m) : Rel ReqSt m := fun s => by
  obtain ⟨_, _, h⟩ := h s
  show (m s).2.req.state = _
  rw [h]

macro_rules | `(tactic| rel_pre) => `(tactic| exact ReqSt.pre)
macro_rules | `(tactic| rel_known) => `(tactic| (refine Rel.reqSt ?_; rel_known))

theorem requestNext_st (e : Env) : Rel ReqSt (requestNext e) := fun _ => rfl
theorem requestConsume_st (n : Nat) : Rel ReqSt (requestConsume n) := fun _ => rfl

macro_rules | `(tactic| rel_known) => `(tactic| exact requestNext_st _)
macro_rules | `(tactic| rel_known) => `(tactic| exact requestConsume_st _)

theorem requestReceiverSendData_st (e : Env) : Rel ReqSt (requestReceiverSendData e) := by
  unfold requestReceiverSendData
  rel_walk
  rfl

macro_rules | `(tactic| rel_known) => `(tactic| exact requestReceiverSendData_st _)

theorem requestReceiverFinalizeClear_st (e : Env) : Rel ReqSt (requestReceiverFinalizeClear e) := by
  unfold requestReceiverFinalizeClear
  rel_walk <;> rfl

macro_rules | `(tactic| rel_known) => `(tactic| exact requestReceiverFinalizeClear_st _)

theorem requestSetReceiver_st (e : Env) : Rel ReqSt (requestSetReceiver e) := by
  unfold requestSetReceiver
  rel_walk <;> rfl

macro_rules | `(tactic| rel_known) => `(tactic| exact requestSetReceiver_st _)

theorem requestHandleStateChange_st (e : Env) : Rel ReqSt (requestHandleStateChange e) := by
  unfold requestHandleStateChange
  rel_walk <;> rfl

macro_rules | `(tactic| rel_known) => `(tactic| exact requestHandleStateChange_st _)

/-- The rule for a sequence when the first part leaves the claim to the second. -/
theorem post.bind_any {α β : Type} {m : M α} {f : α → M β} {s : Conn} {b : β}
    {P : Conn → Prop} (h : ∀ a s', post (f a) s' (fun r s'' => r = .ok b → P s'')) :
    post (m >>= f) s (fun r s'' => r = .ok b → P s'') := by
  refine post.bind ?_
  show match (m s).1 with | .ok a => _ | .error x => _
  cases (m s).1 with
  | ok a => exact h a _
  | error x => intro h; cases h

theorem stateRequestStart_state (e : Env) (s : Conn) :
    (stateRequestStart e s).2.req.state = .line := by
  have h : Rel ReqSt (do
      let t ← requestTx e
      putRequest { t with requestProgress := .line }
      let s ← state
      runTxHook e .requestStart s.txs.request) := by rel_walk
  exact h { s with req := { s.req with state := .line } }

theorem post.last_setReq {s : Conn} {f : Half → Half} {P : Conn → Prop}
    (h : ∀ s : Conn, P { s with req := f s.req }) :
    post (M.setReq f) s (fun r s' => r = .ok () → P s') := fun _ => h s

theorem stateRequestTrailer_state (e : Env) (s : Conn) :
    post (stateRequestTrailer e) s (fun r s' => r = .ok () → s'.req.state = .finalize) := by
  unfold stateRequestTrailer
  refine post.bind_any fun _ _ => post.bind_any fun _ _ => ?_
  exact post.last_setReq fun _ => rfl

theorem stateRequestHeadersDone_state (e : Env) (s : Conn) :
    post (stateRequestHeadersDone e) s (fun r s' => r = .ok () → s'.req.state = .connectCheck) := by
  unfold stateRequestHeadersDone
  refine post.bind_any fun _ _ => post.bind_any fun _ _ => post.bind_any fun _ _ =>
    post.bind_any fun _ _ => post.bind_any fun _ _ => post.bind_any fun _ _ => ?_
  exact post.last_setReq fun _ => rfl

theorem stateRequestHeaders_state (e : Env) (s : Conn) :
    post (stateRequestHeaders e) s
      (fun r s' => r = .ok () → s'.req.state = .connectCheck ∨ s'.req.state = .finalize) := by
  unfold stateRequestHeaders
  refine post.bind_any fun _ _ => post.bind_any fun _ _ => ?_
  refine post.ite (fun _ => ?_) fun _ => post.ite (fun _ => ?_) fun _ => ?_
  · exact (stateRequestTrailer_state e _).mono fun r s' h hr => .inr (h hr)
  · exact (stateRequestHeadersDone_state e _).mono fun r s' h hr => .inl (h hr)
  · intro h; cases h

theorem stateRequestLine_state (e : Env) (s : Conn) :
    post (stateRequestLine e) s (fun r s' => r = .ok () → s'.req.state = .protocol) := by
  unfold stateRequestLine
  refine post.bind_any fun _ _ => post.bind_any fun _ _ => post.bind_any fun _ _ =>
    post.bind_any fun _ _ => post.bind_any fun t _ => ?_
  split
  · intro h; cases h
  · refine post.bind_any fun _ _ => ?_
    exact post.last_setReq fun _ => rfl

theorem stateRequestComplete_state (e : Env) (s : Conn) :
    post (stateRequestComplete e) s
      (fun r s' => r = .ok () → s'.req.state = .idle ∨ s'.req.state = .ignoreDataAfterHttp09) := by
  unfold stateRequestComplete
  refine post.bind_any fun _ _ => post.bind_any fun _ _ => post.bind_any fun t s => ?_
  refine post.bind_setReq ?_
  have h : Rel ReqSt (do
      let s ← state
      finalizeTx e s.txs.request
      requestNext e) := by rel_walk
  refine (h.post _).mono fun r s' h _ => ?_
  rw [h]
  dsimp only
  split <;> simp

end Model

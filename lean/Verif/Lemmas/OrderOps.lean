/-
The order of the callbacks over the operations of a connection parser.
-/
import Verif.Lemmas.OrderSide
import Verif.Lemmas.OrderStep

namespace Model

open M Spec

/-- There is no response data at all. -/
def Drained (s : Conn) : Prop := s.input.data = none ∧ s.input.gapLen = none

/-- What a step of the response machine does when there is no data: the current request stays. -/
structure Dry (s s' : Conn) : Prop where
  step : RStep s s'
  frame : RespFrame s s'
  stays : Base s → Drained s → s'.txs.request = s.txs.request

theorem Dry.pre : Pre Dry where
  refl s := ⟨RStep.pre.refl s, RespFrame.pre.refl s, fun _ _ => rfl⟩
  trans {a b c} h1 h2 := by
    refine ⟨RStep.pre.trans h1.1 h2.1, RespFrame.pre.trans h1.2 h2.2, fun hb hd => ?_⟩
    rw [h2.3 (h1.1 hb).1 ⟨h1.2.data.trans hd.1, h1.2.gap.trans hd.2⟩, h1.3 hb hd]

theorem Drained.isEmpty {s : Conn} (h : Drained s) : s.input.isEmpty = true := by
  unfold PData.isEmpty PData.len PData.asSlice
  rw [h.2, h.1]
  rfl

theorem Keeps.dry {α : Type} {F : α → Prop} {m : M α} (h : ∀ s0, Keeps (Kept s0) F m)
    (hf : Rel RespFrame m) : Rel Dry m :=
  fun s0 => ⟨Keeps.step h s0, hf s0, fun hb _ => (h s0 s0 (Kept.refl hb.1 hb.2)).1.request⟩

theorem handleResponseState_dry (e : Env) : Rel Dry (handleResponseState e) := by
  intro s0
  refine ⟨handleResponseState_step e s0, handleResponseState_frame e s0, fun hb hd => ?_⟩
  have hk : Kept s0 s0 := Kept.refl hb.1 hb.2
  unfold handleResponseState
  refine post.bind_state (Q := fun _ s' => s'.txs.request = s0.txs.request) ?_
  unfold post
  by_cases hi : s0.resp.state = .idle
  · rw [hi]
    show (responseIdle e s0).2.txs.request = _
    unfold responseIdle
    refine post.bind_state (Q := fun _ s' => s'.txs.request = s0.txs.request) ?_
    unfold post
    rw [if_pos hd.isEmpty]
    rfl
  · cases hs : s0.resp.state with
    | idle => exact absurd hs hi
    | line => exact (responseLine_quiet hi e s0 hk).1.request
    | headers => exact (responseHeaders_quiet hi e s0 hk).1.request
    | bodyDetermine => exact (responseBodyDetermine_quiet hi e s0 hk).1.request
    | bodyChunkedData => exact (responseBodyChunkedData_quiet hi e s0 hk).1.request
    | bodyChunkedLength => exact (responseBodyChunkedLength_quiet hi e s0 hk).1.request
    | bodyChunkedDataEnd => exact (responseBodyChunkedDataEnd_quiet hi e s0 hk).1.request
    | finalize =>
      rcases responseFinalize_quiet hi e s0 hk with h | h
      · exact h.request
      · exact h.request
    | bodyIdentityStreamClose => exact (responseBodyIdentityStreamClose_quiet hi e s0 hk).1.request
    | bodyIdentityClKnown => exact (responseBodyIdentityClKnown_quiet hi e s0 hk).1.request
    | _ => rfl

theorem responseAfterStep_dry (e : Env) (rc : Except Status Unit) : Rel Dry (responseAfterStep e rc) := by
  refine Keeps.dry (F := Any) (fun s0 => ?_) (responseAfterStep_frame e rc)
  unfold responseAfterStep responseReturn
  keeps_walk <;> kept_leaf

theorem responseStep_dry (e : Env) : Rel Dry (responseStep e) := by
  unfold responseStep
  refine Rel.bind Dry.pre (Rel.state Dry.pre) fun s => ?_
  refine Rel.ite (Rel.pure Dry.pre) ?_
  refine Rel.bind Dry.pre (Rel.attempt (handleResponseState_dry e)) fun rc => ?_
  unfold responseStepTail
  refine Rel.bind Dry.pre (Rel.state Dry.pre) fun s => ?_
  cases rc with
  | ok _ =>
    refine Rel.ite (Rel.pure Dry.pre) ?_
    exact Rel.bind Dry.pre (Rel.attempt (Keeps.dry (F := Any) (fun s0 => responseHandleStateChange_quiet e)
      (responseHandleStateChange_frame e))) fun rc => responseAfterStep_dry e rc
  | error st => exact responseAfterStep_dry e _

theorem responseLoop_dry (e : Env) (n : Nat) : Rel Dry (responseLoop e n) := by
  induction n with
  | zero => exact Rel.pure Dry.pre
  | succ n ih =>
    unfold responseLoop
    refine Rel.bind Dry.pre (responseStep_dry e) fun r => ?_
    cases r with
    | some st => exact Rel.pure Dry.pre
    | none => exact ih

theorem responseNoteGap_dry (e : Env) : Rel Dry (responseNoteGap e) := by
  refine Keeps.dry (F := Any) (fun s0 => ?_) (responseNoteGap_frame e)
  unfold responseNoteGap responseReturn
  refine Keeps.bind (Keeps.attempt_result (Keeps.responseTx Kept.stable)) fun t ht => ?_
  cases t with
  | error x => exact Keeps.pure
  | ok t =>
    have ht : RespWas s0 t := ht t rfl
    keeps_walk
    · exact ⟨ht.1, ht.2⟩
    · kept_leaf
    · exact ⟨ht.1, ht.2⟩

theorem responseProcess_dry (e : Env) : Rel Dry (responseProcess e) := by
  unfold responseProcess responseEarly
  refine Rel.bind Dry.pre (Rel.state Dry.pre) fun s => ?_
  refine Rel.bind Dry.pre ?_ fun x => ?_
  · refine Rel.bind Dry.pre (Rel.state Dry.pre) fun s => ?_
    exact Rel.ite (responseNoteGap_dry e) (Rel.pure Dry.pre)
  · cases x with
    | some st => exact Rel.pure Dry.pre
    | none => exact responseLoop_dry e _

/-- Closing the response stream does not move the current request. -/
theorem responseData_empty (e : Env) (s : Conn) (hb : Base s) :
    (responseData e {} s).2.txs.request = s.txs.request := by
  unfold responseData
  refine post.bind_modify (Q := fun _ s' => s'.txs.request = s.txs.request) ?_
  refine post.bind_state (Q := fun _ s' => s'.txs.request = s.txs.request) ?_
  unfold post
  split
  · rfl
  · split
    · rfl
    · split
      · rfl
      · refine post.bind_modify (Q := fun _ s' => s'.txs.request = s.txs.request) ?_
        unfold post
        split
        · rfl
        · have := responseProcess_dry e
          exact (this _).3 ⟨hb.1, hb.2, hb.3⟩ ⟨rfl, rfl⟩

/-- Transactions are taken out of the store, and the end of transactions is reported. -/
structure Shrunk (s s' : Conn) : Prop where
  request : s'.txs.request = s.txs.request
  response : s'.txs.response = s.txs.response
  get : ∀ i t, s'.txs.get i = some t → s.txs.get i = some t
  req : s'.req = s.req
  resp : s'.resp = s.resp
  trace : ∃ evs, s'.trace = s.trace ++ evs ∧ ∀ ev ∈ evs, ∃ i, ev = .tx .transactionComplete i

theorem Shrunk.pre : Pre Shrunk where
  refl s := ⟨rfl, rfl, fun _ _ h => h, rfl, rfl, [], by simp, by simp⟩
  trans {a b c} h1 h2 := by
    refine ⟨h2.1.trans h1.1, h2.2.trans h1.2, fun i t h => h1.3 i t (h2.3 i t h), h2.4.trans h1.4,
      h2.5.trans h1.5, ?_⟩
    obtain ⟨x, hx, hx'⟩ := h1.6
    obtain ⟨y, hy, hy'⟩ := h2.6
    refine ⟨x ++ y, by rw [hy, hx, List.append_assoc], ?_⟩
    intro ev hev
    rcases List.mem_append.1 hev with h | h
    · exact hx' ev h
    · exact hy' ev h

theorem Shrunk.remove (s : Conn) (i : Nat) : Shrunk s { s with txs := s.txs.remove i } := by
  refine ⟨rfl, rfl, ?_, rfl, rfl, [], by simp, by simp⟩
  intro j t h
  have h' : (s.txs.remove i).get j = some t := h
  rw [Txs.get_remove] at h'
  split at h'
  · cases h'
  · exact h'

theorem Shrunk.orderly {s s' : Conn} (h : Shrunk s s') (ho : Orderly s) : Orderly s' := by
  refine ho.after h.1 (fun i t ht => ho.store.3 i t (h.3 i t ht)) ?_ (by rw [h.4]) (by rw [h.4])
    (.inl (by rw [h.4])) ?_
  · intro i t ht
    unfold was
    rw [h.3 i t ht]
    rfl
  · obtain ⟨evs, he, hev⟩ := h.6
    refine ⟨evs, he, fun ev h => ?_⟩
    obtain ⟨i, rfl⟩ := hev ev h
    rfl

/-- A transaction is asked for. -/
structure Asked (s s' : Conn) : Prop where
  request : s'.txs.request = s.txs.request
  response : s'.txs.response = s.txs.response
  get : ∀ i t, s'.txs.get i = some t → s.txs.get i = some t ∨ s.txs.get i = none ∧ t = { index := i }
  req : s'.req = s.req
  resp : s'.resp = s.resp
  trace : s'.trace = s.trace

theorem Asked.entry (n : Nat) (s : Conn) (k : Nat) : Asked s { s with txs := (s.txs.entry n k).2 } := by
  rcases Txs.entry_cases n s.txs k with h | ⟨h, _, h2⟩
  · rw [h]
    exact ⟨rfl, rfl, fun _ _ h => .inl h, rfl, rfl, rfl⟩
  · rw [h2]
    refine ⟨rfl, rfl, fun i t ht => ?_, rfl, rfl, rfl⟩
    have ht : (s.txs.set k { index := k }).get i = some t := ht
    rw [Txs.get_set] at ht
    split at ht
    · next hi => cases ht; rw [hi]; exact .inr ⟨h, rfl⟩
    · exact .inl ht

theorem Asked.orderly {s s' : Conn} (h : Asked s s') (ho : Orderly s) : Orderly s' := by
  refine ho.after h.1 (fun i t ht => ?_) ?_ (by rw [h.4]) (by rw [h.4])
    (.inl (by rw [h.4])) ⟨[], by rw [h.6]; simp, by simp⟩
  · rcases h.3 i t ht with h | ⟨_, rfl⟩
    · exact ho.store.3 i t h
    · rfl
  · intro i t ht
    unfold was
    rcases h.3 i t ht with h | ⟨h, rfl⟩
    · rw [h]; rfl
    · rw [h]; rfl

theorem Asked.side {s s' : Conn} (h : Asked s s') (hs : RespSide s) : RespSide s' := by
  refine ⟨⟨fun i t ht => ?_, ?_, ?_⟩, ?_⟩
  · rcases h.3 i t ht with h | ⟨_, rfl⟩
    · exact hs.1.1 i t h
    · rfl
  · unfold RawOnly; rw [h.5]; exact hs.1.2
  · unfold RawRequest; rw [h.4]; exact hs.1.3
  · unfold Conn.begun
    rw [h.2, h.5, h.6]
    exact hs.2

theorem Shrunk.side {s s' : Conn} (h : Shrunk s s') (hs : RespSide s) : RespSide s' := by
  refine ⟨⟨fun i t ht => hs.1.1 i t (h.3 i t ht), ?_, ?_⟩, ?_⟩
  · unfold RawOnly; rw [h.5]; exact hs.1.2
  · unfold RawRequest; rw [h.4]; exact hs.1.3
  · obtain ⟨evs, he, hev⟩ := h.6
    unfold Conn.begun
    rw [h.2, h.5, he]
    refine hs.2.others fun ev h => ?_
    obtain ⟨i, rfl⟩ := hev ev h
    exact ⟨by simp, by simp [responseIndex]⟩

theorem emitEnd_shrunk (e : Env) (i : Nat) : Rel Shrunk (emit e (.tx .transactionComplete i)) := by
  intro s
  have : Shrunk s { s with trace := s.trace ++ [.tx .transactionComplete i] } :=
    ⟨rfl, rfl, fun _ _ h => h, rfl, rfl, [.tx .transactionComplete i], rfl, by simp⟩
  unfold emit
  split <;> exact this

theorem flushAll_shrunk (e : Env) (is : List Nat) : Rel Shrunk (flushAll e is) := by
  induction is with
  | nil => exact Rel.pure Shrunk.pre
  | cons i is ih =>
    unfold flushAll flushOne runTxHook
    refine Rel.bind Shrunk.pre ?_ fun _ => ih
    refine Rel.bind Shrunk.pre (Rel.attempt ?_) fun _ => ?_
    · refine Rel.bind Shrunk.pre (Rel.state Shrunk.pre) fun s => ?_
      exact Rel.when Shrunk.pre (emitEnd_shrunk e i)
    · exact Rel.when Shrunk.pre fun s => Shrunk.remove s i

/-- The streams are opened or marked closed: nothing here changes. -/
theorem RespSide.status {s : Conn} (h : RespSide s) (h1 h2 : StreamState) :
    RespSide { s with req := { s.req with status := h1 }, resp := { s.resp with status := h2 } } :=
  ⟨⟨h.1.1, h.1.2, h.1.3⟩, h.2⟩

theorem Orderly.status {s : Conn} (h : Orderly s) (h1 h2 : StreamState) :
    Orderly { s with req := { s.req with status := h1 }, resp := { s.resp with status := h2 } } :=
  h.same rfl rfl rfl rfl rfl

/-- A response call keeps what is known of the responses. -/
theorem responseData_side (e : Env) (c : PData) (s : Conn) (h : RespSide s) : RespSide (responseData e c s).2 :=
  have h1 := responseData_step e c s h.1
  ⟨h1.1, h1.2.2.2 h.2⟩

theorem closeConn_side (e : Env) (s : Conn) (h : RespSide s) : RespSide (closeConn e s).2 := by
  unfold closeConn
  refine post.bind_modify (Q := fun _ s' => RespSide s') ?_
  refine post.bind (Q := fun _ s' => RespSide s') ?_
  have h1 := requestData_side e {} _ (h.status s.req.markClosed.status s.resp.markClosed.status)
  unfold post
  change RespSide (requestData e {} { s with req := s.req.markClosed, resp := s.resp.markClosed }).2 at h1
  generalize requestData e {} { s with req := s.req.markClosed, resp := s.resp.markClosed } = x at h1 ⊢
  obtain ⟨r, s1⟩ := x
  cases r with
  | error _ => exact h1
  | ok a =>
    dsimp only at h1 ⊢
    refine post.bind (Q := fun _ s' => RespSide s') ?_
    have h2 := responseData_side e {} s1 h1
    unfold post
    generalize responseData e {} s1 = x at h2 ⊢
    obtain ⟨r, s2⟩ := x
    cases r with
    | error _ => exact h2
    | ok b =>
      dsimp only at h2 ⊢
      refine post.bind_state (Q := fun _ s' => RespSide s') ?_
      refine post.bind (Q := fun _ s' => RespSide s') ?_
      have h3 : RespSide (M.when e.cfg.flushIncomplete (flushAll e s2.txs.incomplete) s2).2 :=
        (Rel.when Shrunk.pre (flushAll_shrunk e _) s2).side h2
      unfold post
      generalize M.when e.cfg.flushIncomplete (flushAll e s2.txs.incomplete) s2 = x at h3 ⊢
      obtain ⟨r, s3⟩ := x
      cases r <;> exact h3

theorem closeConn_orderly {e : Env} (hE : EndsAccepted e) (s : Conn) (h : Orderly s) (hb : RespSide s) :
    Orderly (closeConn e s).2 := by
  unfold closeConn
  refine post.bind_modify (Q := fun _ s' => Orderly s') ?_
  refine post.bind (Q := fun _ s' => Orderly s') ?_
  have h1 := requestData_orderly hE {} _ (h.status s.req.markClosed.status s.resp.markClosed.status)
  have hb1 := requestData_side e {} _ (hb.status s.req.markClosed.status s.resp.markClosed.status)
  unfold post
  change Orderly (requestData e {} { s with req := s.req.markClosed, resp := s.resp.markClosed }).2 at h1
  change RespSide (requestData e {} { s with req := s.req.markClosed, resp := s.resp.markClosed }).2 at hb1
  generalize requestData e {} { s with req := s.req.markClosed, resp := s.resp.markClosed } = x at h1 hb1 ⊢
  obtain ⟨r, s1⟩ := x
  cases r with
  | error _ => exact h1
  | ok a =>
    dsimp only at h1 hb1 ⊢
    refine post.bind (Q := fun _ s' => Orderly s') ?_
    have h2 : Orderly (responseData e {} s1).2 :=
      (responseData_step e {} s1 hb1.1).2.2.1 (responseData_empty e s1 hb1.1) h1
    unfold post
    generalize responseData e {} s1 = x at h2 ⊢
    obtain ⟨r, s2⟩ := x
    cases r with
    | error _ => exact h2
    | ok b =>
      dsimp only at h2 ⊢
      refine post.bind_state (Q := fun _ s' => Orderly s') ?_
      refine post.bind (Q := fun _ s' => Orderly s') ?_
      have h3 : Orderly (M.when e.cfg.flushIncomplete (flushAll e s2.txs.incomplete) s2).2 :=
        (Rel.when Shrunk.pre (flushAll_shrunk e _) s2).orderly h2
      unfold post
      generalize M.when e.cfg.flushIncomplete (flushAll e s2.txs.incomplete) s2 = x at h3 ⊢
      obtain ⟨r, s3⟩ := x
      cases r <;> exact h3

theorem op_side (e : Env) (op : Op) (s : Conn) (h : RespSide s) : RespSide (op.run e s).2 := by
  cases op with
  | «open» =>
    show RespSide (if s.req.status ≠ .new ∨ s.resp.status ≠ .new then s else _)
    split
    · exact h
    · exact h.status .open .open
  | request c => exact requestData_side e _ s h
  | response c => exact responseData_side e _ s h
  | requestClose => exact requestData_side e {} _ (h.status s.req.markClosed.status s.resp.status)
  | close =>
    have := closeConn_side e s h
    unfold Op.run
    refine post.bind (Q := fun _ s' => RespSide s') ?_
    unfold post
    generalize closeConn e s = x at this ⊢
    obtain ⟨r, s1⟩ := x
    cases r <;> exact this
  | removeTx i => exact (Shrunk.remove s i).side h
  | askRequest => exact (Asked.entry _ s _).side h
  | askResponse => exact (Asked.entry _ s _).side h

theorem op_orderly {e : Env} (hE : EndsAccepted e) (op : Op) (s : Conn) (h : Orderly s) (hb : RespSide s)
    (hs : ∀ c, op = .response c → (op.run e s).2.txs.request = s.txs.request) : Orderly (op.run e s).2 := by
  cases op with
  | «open» =>
    show Orderly (if s.req.status ≠ .new ∨ s.resp.status ≠ .new then s else _)
    split
    · exact h
    · exact h.status .open .open
  | request c => exact requestData_orderly hE _ s h
  | response c => exact (responseData_step e _ s hb.1).2.2.1 (hs c rfl) h
  | requestClose => exact requestData_orderly hE {} _ (h.status s.req.markClosed.status s.resp.status)
  | close =>
    have := closeConn_orderly hE s h hb
    unfold Op.run
    refine post.bind (Q := fun _ s' => Orderly s') ?_
    unfold post
    generalize closeConn e s = x at this ⊢
    obtain ⟨r, s1⟩ := x
    cases r <;> exact this
  | removeTx i => exact (Shrunk.remove s i).orderly h
  | askRequest => exact (Asked.entry _ s _).orderly h
  | askResponse => exact (Asked.entry _ s _).orderly h

theorem new_side : RespSide {} := by
  refine ⟨⟨?_, ?_, ?_⟩, Replies.new⟩
  · intro i t h; cases h
  · intro x h; cases h
  · intro x h; cases h

theorem new_orderly : Orderly {} := by
  refine ⟨⟨rfl, rfl, ?_, ?_, ?_⟩, ?_, .inl rfl, .inl rfl⟩
  · intro i t h; cases h
  · intro t h; cases h
  · intro i t _ h; cases h
  · exact Core.new

theorem reachable_side {e : Env} {s : Conn} (h : Reachable e s) : RespSide s := by
  induction h with
  | new => exact new_side
  | call op r _ hr ih =>
    have := op_side e op _ ih
    rw [hr] at this
    exact this

theorem _root_.Spec.Requested.reachable {e : Env} {s : Conn} (h : Requested e s) : Reachable e s := by
  induction h with
  | new => exact .new
  | call op r _ hr _ ih => exact .call op r ih hr

theorem requested_orderly {e : Env} (hE : EndsAccepted e) {s : Conn} (h : Requested e s) : Orderly s := by
  induction h with
  | new => exact new_orderly
  | call op r h0 hr hq ih =>
    have := op_orderly hE op _ ih (reachable_side h0.reachable) (by rw [hr]; exact hq)
    rw [hr] at this
    exact this

/-- The invariant of the trace, whatever the state of the request machine. -/
theorem Orderly.core {s : Conn} (h : Orderly s) : Core s.trace s.txs.request 4 := by
  have hf := h.fits
  unfold Fits at hf
  cases hs : s.req.state <;> rw [hs] at hf <;> first
    | exact hf
    | exact hf.1
    | exact hf.mono (by omega)

end Model

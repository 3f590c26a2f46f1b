/-
The steps of the response machine, and the order of the callbacks.
-/
import Verif.Lemmas.OrderResp

namespace Model

open M Spec

/-- The beginning of a response is reported. -/
theorem start_step {s0 s1 : Conn} (h : Kept s0 s1) (hi : s0.resp.state = .idle) {t : Tx} (ht : RespWas s0 t)
    {h' : Half} (hs : h'.state ≠ .idle) (hr : h'.receiver = s1.resp.receiver) (k : Nat)
    (hk : k = s0.txs.response) :
    RStep s0 { s1 with
      txs := s1.txs.set s1.txs.response t, resp := h', trace := s1.trace ++ [.tx .responseStart k] } := by
  intro hb
  have h2 := h.put ht
  obtain ⟨evs, he, hq⟩ := h.events
  refine ⟨⟨h2.index, ?_, fun x hx => hb.rawRequest x (h.recv ▸ hx)⟩, ?_, fun _ ho => ?_, fun hrep => ?_⟩
  · intro x hx
    have hx' : h'.receiver = some x := hx
    rw [hr] at hx'
    exact h.raw x hx'
  · show s0.txs.request ≤ s1.txs.request
    rw [h.request]; exact Nat.le_refl _
  · refine ho.after h.request h2.index h2.prog h.recv h.cl h.state ⟨evs ++ [.tx .responseStart k], ?_, ?_⟩
    · show s1.trace ++ _ = _
      rw [he, List.append_assoc]
    · intro ev hev
      rcases List.mem_append.1 hev with h' | h'
      · exact (hq ev h').1
      · cases List.mem_singleton.1 h'; rfl
  · have h3 : Replies s1.trace s0.txs.response := by
      have := (h.step hb).2.2.2 hrep
      unfold Conn.begun at this
      rw [if_pos (h.idle.2 hi), h.response] at this
      exact this
    show Replies (s1.trace ++ [.tx .responseStart k]) (if h'.state = .idle then s1.txs.response else s1.txs.response + 1)
    rw [if_neg hs, h.response, hk]
    exact h3.start

theorem RStep.of {s s' : Conn} (h : Base s → RStep s s') : RStep s s' := fun hb => h hb hb

/-- Reporting the beginning of the response, when its transaction is stored. -/
theorem runStart_run (e : Env) (k : Nat) (s : Conn) (h : s.txs.get k ≠ none) :
    (runTxHook e .responseStart k s).2 = { s with trace := s.trace ++ [.tx .responseStart k] } := by
  unfold runTxHook
  show (M.when (s.txs.get k).isSome (emit e _) s).2 = _
  cases hg : s.txs.get k with
  | none => exact absurd hg h
  | some t =>
    show (emit e _ s).2 = _
    unfold emit
    split <;> rfl

theorem stateResponseStart_step (e : Env) (s0 : Conn) (hi : s0.resp.state = .idle) :
    RStep s0 (stateResponseStart e s0).2 := by
  refine RStep.of fun hb => ?_
  unfold stateResponseStart
  refine post.bind (Q := fun _ s' => RStep s0 s') ?_
  have h1 := Keeps.responseTx (e := e) (x := .status .error) Kept.stable s0 (Kept.refl hb.1 hb.2)
  unfold post
  generalize responseTx e (.status .error) s0 = x at h1 ⊢
  obtain ⟨r, s1⟩ := x
  cases r with
  | error x => exact h1.1.step
  | ok t =>
    obtain ⟨h2, h3⟩ := h1
    have ht := h3 t rfl
    dsimp only at h2 ⊢
    refine post.bind_state (Q := fun _ s' => RStep s0 s') ?_
    unfold post
    have hput : ∀ (u : Tx), (s1.txs.set s1.txs.response u).get s1.txs.response ≠ none := by
      intro u
      rw [Txs.get_set, if_pos rfl]
      simp
    split
    · have := start_step h2 hi (t := { t with
          responseTransferCoding := .identity, responseContentEncodingProcessing := .none
          responseProgress := .body }) ht
        (h' := { s1.resp with state := .bodyIdentityStreamClose, bodyDataLeft := none }) (by simp) rfl
        s1.txs.response h2.response
      refine Eq.mp (congrArg (RStep s0) ?_) this
      exact (runStart_run e s1.txs.response { s1 with
        txs := s1.txs.set s1.txs.response { t with
          responseTransferCoding := .identity, responseContentEncodingProcessing := .none
          responseProgress := .body }
        resp := { s1.resp with state := .bodyIdentityStreamClose, bodyDataLeft := none } } (hput _)).symm
    · have := start_step h2 hi (t := { t with responseProgress := .line }) ht
        (h' := { s1.resp with state := .line }) (by simp) rfl s1.txs.response h2.response
      refine Eq.mp (congrArg (RStep s0) ?_) this
      exact (runStart_run e s1.txs.response { s1 with
        txs := s1.txs.set s1.txs.response { t with responseProgress := .line }
        resp := { s1.resp with state := .line } } (hput _)).symm

theorem responseIdle_step (e : Env) (s0 : Conn) (hi : s0.resp.state = .idle) :
    RStep s0 (responseIdle e s0).2 := by
  refine RStep.of fun hb => ?_
  unfold responseIdle
  refine post.bind_state (Q := fun _ s' => RStep s0 s') ?_
  unfold post
  split
  · exact RStep.pre.refl s0
  · refine post.bind (Q := fun _ s' => RStep s0 s') ?_
    have h1 := Keeps.responseTx (e := e) (x := .status .error) Kept.stable s0 (Kept.refl hb.1 hb.2)
    unfold post
    generalize responseTx e (.status .error) s0 = x at h1 ⊢
    obtain ⟨r, s1⟩ := x
    cases r with
    | error x => exact h1.1.step
    | ok t =>
      obtain ⟨h2, h3⟩ := h1
      have ht := h3 t rfl
      dsimp only at h2 ⊢
      -- the made-up request
      have h4 : (M.when (t.requestProgress == .notStarted) (responseWithoutRequest e t) s1).1 = .ok () := by
        cases t.requestProgress == .notStarted <;> rfl
      have h5 : (M.when (t.requestProgress == .notStarted) (responseWithoutRequest e t) s1).2.resp.state = .idle := by
        cases t.requestProgress == .notStarted <;> exact h2.idle.2 hi
      have h6 : RStep s1 (M.when (t.requestProgress == .notStarted) (responseWithoutRequest e t) s1).2 := by
        cases t.requestProgress == .notStarted with
        | false => exact RStep.pre.refl s1
        | true =>
          show RStep s1 (responseWithoutRequest e t s1).2
          intro hb1
          have hreq : (responseWithoutRequest e t s1).2.txs.request = s1.txs.request + 1 := by
            show (Txs.checkFree e.cfg.txAutoDestroy (s1.txs.set s1.txs.response _) _).request + 1 = _
            rw [(checkFree_response ..).2]
            rfl
          have hresp : (responseWithoutRequest e t s1).2.txs.response = s1.txs.response := by
            show (Txs.checkFree e.cfg.txAutoDestroy (s1.txs.set s1.txs.response _) _).response = _
            rw [(checkFree_response ..).1]
            rfl
          refine ⟨⟨?_, hb1.raw, hb1.rawRequest⟩, by omega, fun h => by omega, fun h => ?_⟩
          · intro i u hu
            have hu' : (s1.txs.set s1.txs.response _).get i = some u := get_checkFree hu
            rw [Txs.get_set] at hu'
            split at hu'
            · next hi =>
              cases hu'
              rw [hi, h2.response]
              exact ht.1
            · exact hb1.1 i u hu'
          · unfold Conn.begun
            rw [hresp]
            exact h
      refine post.bind (Q := fun _ s' => RStep s0 s') ?_
      unfold post
      generalize M.when (t.requestProgress == .notStarted) (responseWithoutRequest e t) s1 = x at h4 h5 h6 ⊢
      obtain ⟨r, s2⟩ := x
      dsimp only at h4 h5 h6 ⊢
      rw [h4]
      dsimp only
      have h7 : RStep s2 { s2 with resp := { s2.resp with contentLength := none, bodyDataLeft := none } } := by
        intro hb2
        exact ((Kept.refl hb2.1 hb2.2).setResp
          (h' := { s2.resp with contentLength := none, bodyDataLeft := none }) (.inl rfl) (.inl rfl)).step hb2
      have h8 := stateResponseStart_step e
        { s2 with resp := { s2.resp with contentLength := none, bodyDataLeft := none } } h5
      exact RStep.pre.trans (RStep.pre.trans (RStep.pre.trans h2.step h6) h7) h8

theorem handleResponseState_step (e : Env) : Rel RStep (handleResponseState e) := by
  intro s0
  refine RStep.of fun hb => ?_
  have hk : Kept s0 s0 := Kept.refl hb.1 hb.2
  unfold handleResponseState
  refine post.bind_state (Q := fun _ s' => RStep s0 s') ?_
  unfold post
  by_cases hi : s0.resp.state = .idle
  · rw [hi]
    exact responseIdle_step e s0 hi
  · cases hs : s0.resp.state with
    | idle => exact absurd hs hi
    | line => exact (responseLine_quiet hi e s0 hk).1.step
    | headers => exact (responseHeaders_quiet hi e s0 hk).1.step
    | bodyDetermine => exact (responseBodyDetermine_quiet hi e s0 hk).1.step
    | bodyChunkedData => exact (responseBodyChunkedData_quiet hi e s0 hk).1.step
    | bodyChunkedLength => exact (responseBodyChunkedLength_quiet hi e s0 hk).1.step
    | bodyChunkedDataEnd => exact (responseBodyChunkedDataEnd_quiet hi e s0 hk).1.step
    | finalize =>
      rcases responseFinalize_quiet hi e s0 hk with h | h
      · exact h.step
      · exact h.step
    | bodyIdentityStreamClose => exact (responseBodyIdentityStreamClose_quiet hi e s0 hk).1.step
    | bodyIdentityClKnown => exact (responseBodyIdentityClKnown_quiet hi e s0 hk).1.step
    | _ => exact RStep.pre.refl s0

/-- A function that keeps what the response functions keep. -/
theorem Keeps.step {α : Type} {F : α → Prop} {m : M α} (h : ∀ s0, Keeps (Kept s0) F m) : Rel RStep m :=
  fun s0 hb => (h s0 s0 (Kept.refl hb.1 hb.2)).1.step hb

theorem responseReturn_step (st : StreamState) : Rel RStep (responseReturn st) := by
  refine Keeps.step (F := Any) fun s0 => ?_
  unfold responseReturn
  keeps_walk
  kept_leaf

theorem responseAfterStep_step (e : Env) (rc : Except Status Unit) : Rel RStep (responseAfterStep e rc) := by
  refine Keeps.step (F := Any) fun s0 => ?_
  unfold responseAfterStep responseReturn
  keeps_walk <;> kept_leaf

theorem responseStep_step (e : Env) : Rel RStep (responseStep e) := by
  unfold responseStep
  refine Rel.bind RStep.pre (Rel.state RStep.pre) fun s => ?_
  refine Rel.ite (Rel.pure RStep.pre) ?_
  refine Rel.bind RStep.pre (Rel.attempt (handleResponseState_step e)) fun rc => ?_
  unfold responseStepTail
  refine Rel.bind RStep.pre (Rel.state RStep.pre) fun s => ?_
  cases rc with
  | ok _ =>
    refine Rel.ite (Rel.pure RStep.pre) ?_
    exact Rel.bind RStep.pre (Rel.attempt (Keeps.step (F := Any) fun s0 => responseHandleStateChange_quiet e))
      fun rc => responseAfterStep_step e rc
  | error st => exact responseAfterStep_step e _

theorem responseLoop_step (e : Env) (n : Nat) : Rel RStep (responseLoop e n) := by
  induction n with
  | zero => exact Rel.pure RStep.pre
  | succ n ih =>
    unfold responseLoop
    refine Rel.bind RStep.pre (responseStep_step e) fun r => ?_
    cases r with
    | some st => exact Rel.pure RStep.pre
    | none => exact ih

/-- What is known of an attempt that succeeded. -/
theorem Keeps.attempt_result {α : Type} {P : Conn → Prop} {F : α → Prop} {m : M α} (h : Keeps P F m) :
    Keeps P (fun r => ∀ a, r = Except.ok a → F a) (M.attempt m) := by
  intro s hs
  obtain ⟨h1, h2⟩ := h s hs
  unfold M.attempt
  cases hm : m s with
  | mk r s' =>
    rw [hm] at h1 h2
    cases r with
    | ok a =>
      refine ⟨h1, ?_⟩
      intro r hr a' ha
      cases hr
      cases ha
      exact h2 a rfl
    | error x =>
      cases x with
      | status st =>
        refine ⟨h1, ?_⟩
        intro r hr a' ha
        cases hr
        cases ha
      | panic => exact ⟨h1, fun r hr => by cases hr⟩

theorem responseNoteGap_step (e : Env) : Rel RStep (responseNoteGap e) := by
  refine Keeps.step (F := Any) fun s0 => ?_
  unfold responseNoteGap responseReturn
  refine Keeps.bind (Keeps.attempt_result (Keeps.responseTx Kept.stable)) fun t ht => ?_
  cases t with
  | error x => exact Keeps.pure
  | ok t =>
    have ht : RespWas s0 t := ht t rfl
    keeps_walk
    · exact ⟨ht.1, ht.2⟩
    · kept_leaf
    · exact ⟨ht.1, ht.2⟩

theorem responseData_step (e : Env) (c : PData) : Rel RStep (responseData e c) := by
  unfold responseData
  refine Rel.bind RStep.pre (Keeps.step (F := Any) fun s0 => by keeps_walk; kept_leaf) fun _ => ?_
  refine Rel.bind RStep.pre (Rel.state RStep.pre) fun s => ?_
  refine Rel.ite (Rel.pure RStep.pre) (Rel.ite (Rel.pure RStep.pre) (Rel.ite (Rel.pure RStep.pre) ?_))
  refine Rel.bind RStep.pre (Keeps.step (F := Any) fun s0 => by keeps_walk; kept_leaf) fun _ => ?_
  refine Rel.ite (Rel.pure RStep.pre) ?_
  unfold responseProcess responseEarly
  refine Rel.bind RStep.pre (Rel.state RStep.pre) fun s => ?_
  refine Rel.bind RStep.pre ?_ fun x => ?_
  · refine Rel.bind RStep.pre (Rel.state RStep.pre) fun s => ?_
    exact Rel.ite (responseNoteGap_step e) (Rel.pure RStep.pre)
  · cases x with
    | some st => exact Rel.pure RStep.pre
    | none => exact responseLoop_step e _

end Model

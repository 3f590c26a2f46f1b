/-
Whole calls obey refusals.
-/
import Verif.Lemmas.ObeysResp
import Verif.Lemmas.ConnRun

namespace Model

open M Spec

section
variable {base : Nat}

theorem Clean.checkFree {e : Env} {s : Conn} (h : Clean e base s) {s' : Conn} {b : Bool} {i : Nat}
    (ht : ∀ k, s'.txs.get k = (s.txs.checkFree b i).get k)
    (hr : s'.trace = s.trace) (h1 : s'.req = s.req) (h2 : s'.resp = s.resp) : Clean e base s' := by
  refine ⟨⟨fun k t hk => ?_, by rw [h1]; exact h.plain.req, by rw [h2]; exact h.plain.resp⟩, by rw [hr]; exact h.len,
    by rw [hr]; exact h.fine⟩
  rw [ht] at hk
  exact h.plain.txs k t (get_checkFree hk)

theorem requestNext_obeys (e : Env) : Obeys e base Any (requestNext e) := by
  unfold requestNext
  exact Obeys.of_keeps (Keeps.modify fun s h =>
    h.checkFree (b := e.cfg.txAutoDestroy) (i := s.txs.request) (fun k => rfl) rfl rfl rfl)

macro_rules | `(tactic| obeys_known) => `(tactic| exact requestNext_obeys _)

theorem responseNext_obeys (e : Env) : Obeys e base Any (responseNext e) := by
  unfold responseNext
  exact Obeys.of_keeps (Keeps.modify fun s h =>
    h.checkFree (b := e.cfg.txAutoDestroy) (i := s.txs.response) (fun k => rfl) rfl rfl rfl)

macro_rules | `(tactic| obeys_known) => `(tactic| exact responseNext_obeys _)

theorem stateRequestComplete_obeys (e : Env) : Obeys e base Any (stateRequestComplete e) := by
  unfold stateRequestComplete
  obeys_walk <;> obeys_leaf

macro_rules | `(tactic| obeys_known) => `(tactic| exact stateRequestComplete_obeys _)

theorem requestConnectProbeData_obeys (e : Env) : Obeys e base Any (requestConnectProbeData e) := by
  unfold requestConnectProbeData
  obeys_walk <;> obeys_leaf

macro_rules | `(tactic| obeys_known) => `(tactic| exact requestConnectProbeData_obeys _)

theorem requestFinalizeLine_obeys (e : Env) (work : Bytes) : Obeys e base Any (requestFinalizeLine e work) := by
  unfold requestFinalizeLine
  obeys_walk <;> obeys_leaf

macro_rules | `(tactic| obeys_known) => `(tactic| exact requestFinalizeLine_obeys _ _)

theorem requestFinalize_obeys (e : Env) : Obeys e base Any (requestFinalize e) := by
  unfold requestFinalize
  obeys_walk <;> obeys_leaf

macro_rules | `(tactic| obeys_known) => `(tactic| exact requestFinalize_obeys _)

theorem handleRequestState_obeys (e : Env) : Obeys e base Any (handleRequestState e) := by
  unfold handleRequestState
  obeys_walk <;> obeys_leaf

macro_rules | `(tactic| obeys_known) => `(tactic| exact handleRequestState_obeys _)

theorem stateResponseComplete_obeys (e : Env) : Obeys e base Any (stateResponseComplete e) := by
  unfold stateResponseComplete
  obeys_walk <;> obeys_leaf

macro_rules | `(tactic| obeys_known) => `(tactic| exact stateResponseComplete_obeys _)

theorem responseFinalizeLine_obeys (e : Env) (work : Bytes) : Obeys e base Any (responseFinalizeLine e work) := by
  unfold responseFinalizeLine
  obeys_walk <;> obeys_leaf

macro_rules | `(tactic| obeys_known) => `(tactic| exact responseFinalizeLine_obeys _ _)

theorem responseFinalize_obeys (e : Env) : Obeys e base Any (responseFinalize e) := by
  unfold responseFinalize
  obeys_walk <;> obeys_leaf

macro_rules | `(tactic| obeys_known) => `(tactic| exact responseFinalize_obeys _)

theorem responseWithoutRequest_obeys (e : Env) (t : Tx) (ht : t.Plain e.cfg) : Obeys e base Any (responseWithoutRequest e t) := by
  unfold responseWithoutRequest
  obeys_walk <;> obeys_leaf

macro_rules | `(tactic| obeys_known) => `(tactic| exact responseWithoutRequest_obeys _ _ (by assumption))

theorem responseIdle_obeys (e : Env) : Obeys e base Any (responseIdle e) := by
  unfold responseIdle
  obeys_walk <;> obeys_leaf

macro_rules | `(tactic| obeys_known) => `(tactic| exact responseIdle_obeys _)

theorem handleResponseState_obeys (e : Env) : Obeys e base Any (handleResponseState e) := by
  unfold handleResponseState
  obeys_walk <;> obeys_leaf

macro_rules | `(tactic| obeys_known) => `(tactic| exact handleResponseState_obeys _)

/-- How a call ends: no callback that is obeyed has refused, or its refusal is the end. -/
def Fed (e : Env) (base : Nat) (status : Conn → StreamState) (r : Option StreamState) (s : Conn) : Prop :=
  Clean e base s ∨ ∃ st, Struck e base st s ∧ r = some (answerTo st) ∧ status s = answerTo st

/-- A function that ends like that. -/
def EndsFed (e : Env) (base : Nat) (status : Conn → StreamState) (m : M (Option StreamState)) : Prop :=
  ∀ s, Clean e base s → ∀ r s', m s = (.ok r, s') → Fed e base status r s'

section
variable {e : Env} {status : Conn → StreamState}

theorem EndsFed.of_keeps {F : Option StreamState → Prop} {m : M (Option StreamState)} (h : Keeps (Clean e base) F m) :
    EndsFed e base status m := by
  intro s hs r s' hm
  have := (h s hs).1
  rw [hm] at this
  exact .inl this

theorem EndsFed.bind {α : Type} {F : α → Prop} {m : M α} {f : α → M (Option StreamState)} (h : Keeps (Clean e base) F m)
    (h' : ∀ a, F a → EndsFed e base status (f a)) : EndsFed e base status (m >>= f) := by
  intro s hs r s' hr
  have hm := h s hs
  cases hc : m s with
  | mk x s1 =>
    rw [hc] at hm
    cases x with
    | ok a => rw [M.bind_ok hc] at hr; exact h' a (hm.2 a rfl) s1 hm.1 r s' hr
    | error x => rw [M.bind_error hc] at hr; cases hr

theorem EndsFed.bind_state {f : Conn → M (Option StreamState)} (h : ∀ s, Clean e base s → EndsFed e base status (f s)) :
    EndsFed e base status (M.state >>= f) := EndsFed.bind Keeps.state h

theorem EndsFed.ite {c : Prop} [Decidable c] {m m' : M (Option StreamState)} (h : EndsFed e base status m)
    (h' : EndsFed e base status m') : EndsFed e base status (if c then m else m') := by
  split <;> assumption

/-- Both parts have returned. -/
theorem M.bind_returned {α β : Type} {m : M α} {f : α → M β} {s s' : Conn} {b : β} (h : (m >>= f) s = (.ok b, s')) :
    ∃ a s1, m s = (.ok a, s1) ∧ f a s1 = (.ok b, s') := by
  cases hm : m s with
  | mk x s1 =>
    cases x with
    | ok a => rw [M.bind_ok hm] at h; exact ⟨a, s1, rfl, h⟩
    | error x => rw [M.bind_error hm] at h; cases h

/-- What `attempt` hands over. -/
theorem Obeys.attempt {α : Type} {F : α → Prop} {m : M α} (h : Obeys e base F m) {s : Conn} (hs : Clean e base s) {rc : Except Status α}
    {s' : Conn} (ha : M.attempt m s = (.ok rc, s')) : Clean e base s' ∨ ∃ st, rc = .error st ∧ Struck e base st s' := by
  have hm := h s hs
  cases hc : m s with
  | mk x s1 =>
    rw [hc] at hm
    cases x with
    | ok a =>
      rw [M.attempt_ok hc] at ha
      cases ha
      exact .inl hm.1
    | error x =>
      cases x with
      | panic => unfold M.attempt at ha; rw [hc] at ha; cases ha
      | status st =>
        rw [M.attempt_error hc] at ha
        cases ha
        exact hm.imp id fun h => ⟨st, rfl, h⟩

end

theorem requestAfterStep_clean (e : Env) (rc : Except Status Unit) : Keeps (Clean e base) Any (requestAfterStep e rc) := by
  unfold requestAfterStep requestReturn
  have hr : ∀ x, Keeps (Clean e base) Any (do setReq fun h => { h with status := x }; pure (some x) : M (Option StreamState)) :=
    fun x => Keeps.bind (F := Any) (Keeps.setReq fun s h => h.mod rfl rfl (.inl rfl) (.inl rfl)) fun _ _ => Keeps.pure
  split
  all_goals first
    | exact Keeps.pure
    | exact hr _
    | exact Keeps.bind (F := Any) (Keeps.attempt (requestReceiverSendData_clean e)) fun _ _ => hr _
    | exact Keeps.bind_state fun s _ => Keeps.ite (fun _ => hr _) fun _ => hr _

theorem requestAfterStep_struck {e : Env} {st : Status} {s : Conn} (h : Struck e base st s)
    (hst : st ≠ .data ∧ st ≠ .dataBuffer ∧ st ≠ .dataOther) {r : Option StreamState} {s' : Conn}
    (hr : requestAfterStep e (.error st) s = (.ok r, s')) : Fed e base (·.req.status) r s' := by
  have h' : requestAfterStep e (.error st) s =
      (.ok (some (answerTo st)), { s with req := { s.req with status := answerTo st } }) := by
    cases st <;> first | rfl | exact absurd rfl hst.1 | exact absurd rfl hst.2.1 | exact absurd rfl hst.2.2
  rw [h'] at hr
  cases hr
  exact .inr ⟨st, ⟨⟨h.plain.txs, h.plain.req, h.plain.resp⟩, h.last⟩, rfl, rfl⟩

theorem requestAfterStep_fed {e : Env} (hp : PlainAnswers e) {rc : Except Status Unit} {s : Conn}
    (h : Clean e base s ∨ ∃ st, rc = .error st ∧ Struck e base st s) {r : Option StreamState} {s' : Conn}
    (hr : requestAfterStep e rc s = (.ok r, s')) : Fed e base (·.req.status) r s' := by
  rcases h with h | ⟨st, rfl, h⟩
  · exact EndsFed.of_keeps (requestAfterStep_clean e rc) s h r s' hr
  · obtain ⟨pre, ev, -, -, -, hh, -⟩ := h.last
    exact requestAfterStep_struck h (hp _ _ _ hh) hr

theorem requestStep_feeds {e : Env} (hp : PlainAnswers e) : EndsFed e base (·.req.status) (requestStep e) := by
  unfold requestStep
  refine EndsFed.bind_state fun s0 _ => EndsFed.ite (EndsFed.of_keeps Keeps.pure) ?_
  intro s hs r s' hr
  obtain ⟨rc, s1, h1, h2⟩ := M.bind_returned hr
  have h1 := (handleRequestState_obeys e).attempt hs h1
  unfold requestStepTail at h2
  cases rc with
  | error st =>
    exact requestAfterStep_fed hp h1 h2
  | ok u =>
    have h1 : Clean e base s1 := h1.elim id fun ⟨_, h, _⟩ => by cases h
    have h2 : (if s1.req.status = .tunnel then pure (some .tunnel) else do
      let rc ← attempt (requestHandleStateChange e)
      requestAfterStep e rc : M (Option StreamState)) s1 = (.ok r, s') := h2
    split at h2
    · cases h2; exact .inl h1
    · obtain ⟨rc, s2, h3, h4⟩ := M.bind_returned h2
      exact requestAfterStep_fed hp ((requestHandleStateChange_obeys e).attempt h1 h3) h4

theorem requestLoop_feeds {e : Env} (hp : PlainAnswers e) (n : Nat) : EndsFed e base (·.req.status) (requestLoop e n) := by
  induction n with
  | zero => exact EndsFed.of_keeps Keeps.pure
  | succ n ih =>
    intro s hs r s' hr
    unfold requestLoop at hr
    obtain ⟨x, s1, h1, h2⟩ := M.bind_returned hr
    have h1 := requestStep_feeds hp s hs x s1 h1
    cases x with
    | some st => cases h2; exact h1
    | none =>
      have h1 : Clean e base s1 := h1.elim id fun ⟨_, _, h, _⟩ => by cases h
      exact ih s1 h1 r s' h2

theorem requestNoteGap_clean (e : Env) : Keeps (Clean e base) Any (requestNoteGap e) := by
  unfold requestNoteGap requestReturn
  refine Keeps.bind (Keeps.attempt_result (Keeps.requestTx clean_req)) fun t ht => ?_
  cases t with
  | error x => exact Keeps.pure
  | ok t =>
    have ht : t.Plain e.cfg := ht t rfl
    refine Keeps.bind_state fun s hs => Keeps.ite (fun _ => ?_) fun _ => ?_
    · refine Keeps.bind (F := Any) (Keeps.putRequest clean_req (ht.coding rfl)) fun _ _ => ?_
      exact Keeps.bind (F := Any) (Keeps.setReq fun s h => h.mod rfl rfl (.inl rfl) (.inl rfl)) fun _ _ => Keeps.pure
    · exact Keeps.bind (F := Any) (Keeps.putRequest clean_req (ht.coding rfl)) fun _ _ => Keeps.pure

theorem requestProcess_feeds {e : Env} (hp : PlainAnswers e) : EndsFed e base (·.req.status) (requestProcess e) := by
  unfold requestProcess requestEarly
  refine EndsFed.bind (F := Any) (Keeps.modify fun s h => h.mod rfl rfl (.inl rfl) ?_) fun _ _ => ?_
  · dsimp only
    split <;> exact .inl rfl
  refine EndsFed.bind_state fun s _ => ?_
  refine EndsFed.bind (F := Any) (Keeps.bind_state fun s _ => Keeps.ite (fun _ => requestNoteGap_clean e) fun _ => Keeps.pure)
    fun x _ => ?_
  cases x with
  | some st => exact EndsFed.of_keeps Keeps.pure
  | none => exact requestLoop_feeds hp _

theorem requestData_feeds {e : Env} (hp : PlainAnswers e) (c : PData) : EndsFed e base (·.req.status) (requestData e c) := by
  unfold requestData
  refine EndsFed.bind (F := Any) (Keeps.modify fun s h => h.mod rfl rfl (.inl rfl) (.inl rfl)) fun _ _ => ?_
  refine EndsFed.bind_state fun s _ => ?_
  refine EndsFed.ite (EndsFed.of_keeps Keeps.pure) (EndsFed.ite (EndsFed.of_keeps Keeps.pure) (EndsFed.ite (EndsFed.of_keeps Keeps.pure) ?_))
  refine EndsFed.bind (F := Any) (Keeps.modify fun s h => h.mod rfl rfl (.inl rfl) (.inl rfl)) fun _ _ => ?_
  exact EndsFed.ite (EndsFed.of_keeps Keeps.pure) (requestProcess_feeds hp)

theorem responseAfterStep_clean (e : Env) (rc : Except Status Unit) : Keeps (Clean e base) Any (responseAfterStep e rc) := by
  unfold responseAfterStep responseReturn
  have hr : ∀ x, Keeps (Clean e base) Any (do setResp fun h => { h with status := x }; pure (some x) : M (Option StreamState)) :=
    fun x => Keeps.bind (F := Any) (Keeps.setResp fun s h => h.mod rfl rfl (.inl rfl) (.inl rfl)) fun _ _ => Keeps.pure
  split
  all_goals first
    | exact Keeps.pure
    | exact hr _
    | exact Keeps.bind (F := Any) (Keeps.attempt (responseReceiverSendData_clean e)) fun _ _ => hr _
    | exact Keeps.bind_state fun s _ => Keeps.ite (fun _ => hr _) fun _ => hr _

theorem responseAfterStep_struck {e : Env} {st : Status} {s : Conn} (h : Struck e base st s)
    (hst : st ≠ .data ∧ st ≠ .dataBuffer ∧ st ≠ .dataOther) {r : Option StreamState} {s' : Conn}
    (hr : responseAfterStep e (.error st) s = (.ok r, s')) : Fed e base (·.resp.status) r s' := by
  have h' : responseAfterStep e (.error st) s =
      (.ok (some (answerTo st)), { s with resp := { s.resp with status := answerTo st } }) := by
    cases st <;> first | rfl | exact absurd rfl hst.1 | exact absurd rfl hst.2.1 | exact absurd rfl hst.2.2
  rw [h'] at hr
  cases hr
  exact .inr ⟨st, ⟨⟨h.plain.txs, h.plain.req, h.plain.resp⟩, h.last⟩, rfl, rfl⟩

theorem responseAfterStep_fed {e : Env} (hp : PlainAnswers e) {rc : Except Status Unit} {s : Conn}
    (h : Clean e base s ∨ ∃ st, rc = .error st ∧ Struck e base st s) {r : Option StreamState} {s' : Conn}
    (hr : responseAfterStep e rc s = (.ok r, s')) : Fed e base (·.resp.status) r s' := by
  rcases h with h | ⟨st, rfl, h⟩
  · exact EndsFed.of_keeps (responseAfterStep_clean e rc) s h r s' hr
  · obtain ⟨pre, ev, -, -, -, hh, -⟩ := h.last
    exact responseAfterStep_struck h (hp _ _ _ hh) hr

theorem responseStep_feeds {e : Env} (hp : PlainAnswers e) : EndsFed e base (·.resp.status) (responseStep e) := by
  unfold responseStep
  refine EndsFed.bind_state fun s0 _ => EndsFed.ite (EndsFed.of_keeps Keeps.pure) ?_
  intro s hs r s' hr
  obtain ⟨rc, s1, h1, h2⟩ := M.bind_returned hr
  have h1 := (handleResponseState_obeys e).attempt hs h1
  unfold responseStepTail at h2
  cases rc with
  | error st =>
    exact responseAfterStep_fed hp h1 h2
  | ok u =>
    have h1 : Clean e base s1 := h1.elim id fun ⟨_, h, _⟩ => by cases h
    have h2 : (if s1.resp.status = .tunnel then pure (some .tunnel) else do
      let rc ← attempt (responseHandleStateChange e)
      responseAfterStep e rc : M (Option StreamState)) s1 = (.ok r, s') := h2
    split at h2
    · cases h2; exact .inl h1
    · obtain ⟨rc, s2, h3, h4⟩ := M.bind_returned h2
      exact responseAfterStep_fed hp ((responseHandleStateChange_obeys e).attempt h1 h3) h4

theorem responseLoop_feeds {e : Env} (hp : PlainAnswers e) (n : Nat) : EndsFed e base (·.resp.status) (responseLoop e n) := by
  induction n with
  | zero => exact EndsFed.of_keeps Keeps.pure
  | succ n ih =>
    intro s hs r s' hr
    unfold responseLoop at hr
    obtain ⟨x, s1, h1, h2⟩ := M.bind_returned hr
    have h1 := responseStep_feeds hp s hs x s1 h1
    cases x with
    | some st => cases h2; exact h1
    | none =>
      have h1 : Clean e base s1 := h1.elim id fun ⟨_, _, h, _⟩ => by cases h
      exact ih s1 h1 r s' h2

theorem responseNoteGap_clean (e : Env) : Keeps (Clean e base) Any (responseNoteGap e) := by
  unfold responseNoteGap responseReturn
  refine Keeps.bind (Keeps.attempt_result (Keeps.responseTx clean_resp)) fun t ht => ?_
  cases t with
  | error x => exact Keeps.pure
  | ok t =>
    have ht : t.Plain e.cfg := ht t rfl
    refine Keeps.bind_state fun s hs => Keeps.ite (fun _ => ?_) fun _ => ?_
    · refine Keeps.bind (F := Any) (Keeps.putResponse clean_resp (ht.coding rfl)) fun _ _ => ?_
      exact Keeps.bind (F := Any) (Keeps.setResp fun s h => h.mod rfl rfl (.inl rfl) (.inl rfl)) fun _ _ => Keeps.pure
    · exact Keeps.bind (F := Any) (Keeps.putResponse clean_resp (ht.coding rfl)) fun _ _ => Keeps.pure

theorem responseProcess_feeds {e : Env} (hp : PlainAnswers e) : EndsFed e base (·.resp.status) (responseProcess e) := by
  unfold responseProcess responseEarly
  refine EndsFed.bind_state fun s _ => ?_
  refine EndsFed.bind (F := Any) (Keeps.bind_state fun s _ => Keeps.ite (fun _ => responseNoteGap_clean e) fun _ => Keeps.pure)
    fun x _ => ?_
  cases x with
  | some st => exact EndsFed.of_keeps Keeps.pure
  | none => exact responseLoop_feeds hp _

theorem responseData_feeds {e : Env} (hp : PlainAnswers e) (c : PData) : EndsFed e base (·.resp.status) (responseData e c) := by
  unfold responseData
  refine EndsFed.bind (F := Any) (Keeps.modify fun s h => h.mod rfl rfl (.inl rfl) (.inl rfl)) fun _ _ => ?_
  refine EndsFed.bind_state fun s _ => ?_
  refine EndsFed.ite (EndsFed.of_keeps Keeps.pure) (EndsFed.ite (EndsFed.of_keeps Keeps.pure) (EndsFed.ite (EndsFed.of_keeps Keeps.pure) ?_))
  refine EndsFed.bind (F := Any) (Keeps.modify fun s h => h.mod rfl rfl (.inl rfl) (.inl rfl)) fun _ _ => ?_
  exact EndsFed.ite (EndsFed.of_keeps Keeps.pure) (responseProcess_feeds hp)

theorem Fed.plain {e : Env} {status : Conn → StreamState} {r : Option StreamState} {s : Conn} (h : Fed e base status r s) :
    PlainConn e s := by
  rcases h with h | ⟨_, h, _⟩ <;> exact h.plain

/-- Nothing has happened yet. -/
theorem PlainConn.clean {e : Env} {s : Conn} (h : PlainConn e s) : Clean e s.trace.length s := by
  refine ⟨h, Nat.le_refl _, fun pre ev post ht hn _ => ?_⟩
  have := congrArg List.length ht
  simp only [List.length_append, List.length_cons] at this
  omega

theorem PlainConn.closed {e : Env} {s : Conn} (h : PlainConn e s) : PlainConn e { s with req := s.req.markClosed } :=
  ⟨h.txs, h.req, h.resp⟩

theorem feeding_fed {e : Env} (hp : PlainAnswers e) {s : Conn} (hs : PlainConn e s) {op : Op} {status : Conn → StreamState}
    (ho : Feeding op status) {r : Option StreamState} {s' : Conn} (h : op.run e s = (.ok r, s')) :
    Fed e s.trace.length status r s' := by
  cases ho with
  | request c => exact requestData_feeds hp _ s hs.clean r s' h
  | response c => exact responseData_feeds hp _ s hs.clean r s' h
  | close => exact requestData_feeds hp {} { s with req := s.req.markClosed } (PlainConn.clean hs.closed) r s' h

/-- Changes to the transactions that keep a state plain. -/
theorem plain_keeps {e : Env} : Keeps (PlainConn e) Any (do let s ← M.state; M.when e.cfg.flushIncomplete (flushAll e s.txs.incomplete)) := by
  refine Keeps.bind_state fun s _ => Keeps.when fun _ => ?_
  generalize s.txs.incomplete = is
  induction is with
  | nil => exact Keeps.pure
  | cons i is ih =>
    refine Keeps.bind (F := Any) ?_ fun _ _ => ih
    unfold flushOne
    refine Keeps.bind (F := Any) (Keeps.attempt (F := Any) (Keeps.runTxHook fun s h => ⟨h.txs, h.req, h.resp⟩)) fun _ _ => ?_
    refine Keeps.when fun _ => Keeps.modify fun s h => ⟨fun k t hk => ?_, h.req, h.resp⟩
    dsimp only at hk
    rw [Txs.get_remove] at hk
    split at hk
    · cases hk
    · exact h.txs k t hk

theorem reachable_plainConn {e : Env} (hp : PlainAnswers e) {s : Conn} (hs : Reachable e s) : PlainConn e s := by
  induction hs with
  | new => exact ⟨fun i t h => (by cases h), trivial, trivial⟩
  | @call s s' op r hs h ih =>
    cases op with
    | request c => exact (feeding_fed hp ih (.request c) h).plain
    | response c => exact (feeding_fed hp ih (.response c) h).plain
    | requestClose => exact (feeding_fed hp ih .close h).plain
    | «open» =>
      obtain ⟨u, s1, h1, h2⟩ := M.bind_returned h
      cases h2
      unfold openConn M.modify at h1
      cases h1
      dsimp only
      split
      · exact ih
      · exact ⟨ih.txs, ih.req, ih.resp⟩
    | removeTx i =>
      obtain ⟨u, s1, h1, h2⟩ := M.bind_returned h
      cases h2
      cases h1
      refine ⟨fun k t hk => ?_, ih.req, ih.resp⟩
      dsimp only at hk
      rw [Txs.get_remove] at hk
      split at hk
      · cases hk
      · exact ih.txs k t hk
    | close =>
      obtain ⟨u, s1, h1, h2⟩ := M.bind_returned h
      cases h2
      unfold closeConn at h1
      obtain ⟨_, s2, h2, h1⟩ := M.bind_returned h1
      have h2 : PlainConn e s2 := by cases h2; exact ⟨ih.txs, ih.req, ih.resp⟩
      obtain ⟨a, s3, h3, h1⟩ := M.bind_returned h1
      have h3 := (requestData_feeds hp {} s2 h2.clean a s3 h3).plain
      obtain ⟨b, s4, h4, h1⟩ := M.bind_returned h1
      have h4 := (responseData_feeds hp {} s3 h3.clean b s4 h4).plain
      have h5 := (plain_keeps s4 h4).1
      have h1 : ((do let s ← M.state; M.when e.cfg.flushIncomplete (flushAll e s.txs.incomplete)) >>= fun _ => pure (a, b) :
          M (Option StreamState × Option StreamState)) s4 = (.ok u, s') := h1
      obtain ⟨_, s5, h6, h1⟩ := M.bind_returned h1
      rw [h6] at h5
      cases h1
      exact h5
    | askRequest =>
      obtain ⟨u, s1, h1, h2⟩ := M.bind_returned h
      cases h2
      have := (Keeps.requestTx (P := Clean e s.trace.length) clean_req (e := e) (x := .panic) s ih.clean).1.plain
      have h3 : s' = (requestTx e .panic s).2 := by
        have hx : s' = (Model.askRequest e s).2 := (congrArg Prod.snd h1).symm
        rw [hx]
        unfold Model.askRequest Model.requestTx
        split <;> rename_i hy <;> rw [hy]
      rw [h3]
      exact this
    | askResponse =>
      obtain ⟨u, s1, h1, h2⟩ := M.bind_returned h
      cases h2
      have := (Keeps.responseTx (P := Clean e s.trace.length) clean_resp (e := e) (x := .panic) s ih.clean).1.plain
      have h3 : s' = (responseTx e .panic s).2 := by
        have hx : s' = (Model.askResponse e s).2 := (congrArg Prod.snd h1).symm
        rw [hx]
        unfold Model.askResponse Model.responseTx
        split <;> rename_i hy <;> rw [hy]
      rw [h3]
      exact this

end

end Model

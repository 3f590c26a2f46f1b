/-
Explicit computation of the request state machine, for callbacks that accept everything.
-/
import Verif.Lemmas.ConnBody
import Verif.Spec.Message

namespace Model

open M Spec

theorem M.bind_bind {α β γ : Type} (m : M α) (f : α → M β) (g : β → M γ) (s : Conn) :
    ((m >>= f) >>= g) s = (m >>= fun a => f a >>= g) s := by
  show (match (match m s with | (.ok a, s) => f a s | (.error e, s) => (.error e, s)) with
    | (.ok a, s) => g a s | (.error e, s) => (.error e, s)) =
    (match m s with | (.ok a, s) => (f a >>= g) s | (.error e, s) => (.error e, s))
  rcases m s with ⟨_ | _, _⟩ <;> rfl

theorem M.pure_run {α : Type} (a : α) (s : Conn) : (pure a : M α) s = (.ok a, s) := rfl
theorem M.pure_bind_run {α β : Type} (a : α) (f : α → M β) (s : Conn) : ((pure a : M α) >>= f) s = f a s := rfl

theorem Txs.put_put (k : Nat) (t u : Tx) (m : List (Nat × Tx)) : put k t (put k u m) = put k t m := by
  induction m with
  | nil => simp [put]
  | cons p m ih =>
    obtain ⟨j, v⟩ := p
    by_cases h1 : k < j
    · simp [put, h1]
    · by_cases h2 : k = j
      · simp [put, h2]
      · simp [put, h1, h2, ih]

/-- A window: what has been read, what has not, and where the data not yet handed out begins. -/
def win (done rest : Bytes) (q : Nat) : PData :=
  { data := some (done ++ rest), gapLen := none, position := done.length, callbackPosition := q }

section
variable (done a b rest : Bytes) (q : Nat)

theorem win_asSlice : (win done rest q).asSlice = rest := by
  simp [PData.asSlice, win]

theorem win_unconsumed : (win done rest q).unconsumed = some rest := by
  simp [PData.unconsumed, win]

theorem win_len : (win done rest q).len = rest.length := by
  show (win done rest q).asSlice.length = _
  rw [win_asSlice]

theorem win_isGap : (win done rest q).isGap = false := rfl

theorem win_isEmpty : (win done rest q).isEmpty = (rest.length == 0) := by
  unfold PData.isEmpty
  rw [win_len]

theorem win_consume : (win done (a ++ b) q).consume a.length = win (done ++ a) b q := by
  simp [PData.consume, win]

theorem win_unconsume : (win (done ++ a) b q).unconsume a.length = win done (a ++ b) q := by
  unfold PData.unconsume win
  dsimp only
  split
  · simp
  · rename_i h
    have : done = [] := by
      cases done with
      | nil => rfl
      | cons c cs => simp at h; omega
    subst this
    simp

theorem win_reset : (win done rest q).resetCallbackStart = win done rest done.length := rfl

theorem win_callback : (win (done ++ a) b done.length).callbackData = (a, win (done ++ a) b (done ++ a).length) := by
  have h1 : List.take (done.length + a.length) (done ++ (a ++ b)) = done ++ a := by
    rw [← List.append_assoc, ← List.length_append, List.take_left]
  simp [PData.callbackData, win, h1]

end

/-- The parser with this request side, this transaction for the current request, these further callbacks run and this
window. -/
def rq (s : Conn) (h : Half) (t : Tx) (evs : List Event) (inp : PData) : Conn :=
  { s with req := h, txs := s.txs.set s.txs.request t, trace := s.trace ++ evs, input := inp }

section
variable {e : Env} {β : Type} (s : Conn) (h : Half) (t : Tx) (evs : List Event) (inp : PData)

theorem rq_req : (rq s h t evs inp).req = h := rfl
theorem rq_input : (rq s h t evs inp).input = inp := rfl
theorem rq_request : (rq s h t evs inp).txs.request = s.txs.request := rfl
theorem rq_response : (rq s h t evs inp).txs.response = s.txs.response := rfl
theorem rq_count : (rq s h t evs inp).requestChunkCount = s.requestChunkCount := rfl
theorem rq_index : (rq s h t evs inp).requestChunkRequestIndex = s.requestChunkRequestIndex := rfl

theorem rq_get : (rq s h t evs inp).txs.get s.txs.request = some t :=
  (Txs.lookup_put _ _ _ _).trans (if_pos rfl)

theorem rq_tx (x : Err) : requestTx e x (rq s h t evs inp) = (.ok t, rq s h t evs inp) :=
  requestTx_some (rq_get s h t evs inp)

theorem rq_tx_bind (x : Err) (f : Tx → M β) :
    (requestTx e x >>= f) (rq s h t evs inp) = f t (rq s h t evs inp) := M.bind_ok (rq_tx s h t evs inp x)

theorem rq_put (t' : Tx) : putRequest t' (rq s h t evs inp) = (.ok (), rq s h t' evs inp) := by
  show (Except.ok (), ({ rq s h t evs inp with txs := _ } : Conn)) = _
  unfold rq Txs.set
  dsimp only
  rw [Txs.put_put]

theorem rq_put_bind (t' : Tx) (f : Unit → M β) :
    (putRequest t' >>= f) (rq s h t evs inp) = f () (rq s h t' evs inp) := M.bind_ok (rq_put s h t evs inp t')

theorem rq_modify (e : Env) (g : Tx → Tx) :
    modifyRequest e g (rq s h t evs inp) = (.ok (), rq s h (g t) evs inp) := by
  unfold modifyRequest
  rw [rq_tx_bind, rq_put]

theorem rq_modify_bind (g : Tx → Tx) (f : Unit → M β) :
    (modifyRequest e g >>= f) (rq s h t evs inp) = f () (rq s h (g t) evs inp) :=
  M.bind_ok (rq_modify s h t evs inp e g)

theorem rq_setReq (g : Half → Half) : setReq g (rq s h t evs inp) = (.ok (), rq s (g h) t evs inp) := rfl

theorem rq_setReq_bind (g : Half → Half) (f : Unit → M β) :
    (setReq g >>= f) (rq s h t evs inp) = f () (rq s (g h) t evs inp) := rfl

theorem rq_state_bind (f : Conn → M β) : (M.state >>= f) (rq s h t evs inp) = f (rq s h t evs inp) (rq s h t evs inp) :=
  rfl

theorem rq_emit (hcb : CallbacksOK e) (ev : Event) :
    emit e ev (rq s h t evs inp) = (.ok (), rq s h t (evs ++ [ev]) inp) := by
  rw [emit_ok hcb]
  simp [rq]

theorem rq_emit_bind (hcb : CallbacksOK e) (ev : Event) (f : Unit → M β) :
    (emit e ev >>= f) (rq s h t evs inp) = f () (rq s h t (evs ++ [ev]) inp) := M.bind_ok (rq_emit s h t evs inp hcb ev)

theorem rq_hook (hcb : CallbacksOK e) (hk : TxHook) :
    runTxHook e hk s.txs.request (rq s h t evs inp) = (.ok (), rq s h t (evs ++ [.tx hk s.txs.request]) inp) := by
  unfold runTxHook
  rw [rq_state_bind, rq_get]
  exact rq_emit s h t evs inp hcb _

theorem rq_hook_bind (hcb : CallbacksOK e) (hk : TxHook) (f : Unit → M β) :
    (runTxHook e hk s.txs.request >>= f) (rq s h t evs inp) =
      f () (rq s h t (evs ++ [.tx hk s.txs.request]) inp) := M.bind_ok (rq_hook s h t evs inp hcb hk)

theorem rq_consume (n : Nat) : requestConsume n (rq s h t evs inp) =
    (.ok (), rq s { h with bytesConsumed := (inp.consume n).position } t evs (inp.consume n)) := rfl

theorem rq_consume_bind (n : Nat) (f : Unit → M β) : (requestConsume n >>= f) (rq s h t evs inp) =
    f () (rq s { h with bytesConsumed := (inp.consume n).position } t evs (inp.consume n)) := rfl

theorem rq_unconsume_bind (n : Nat) (f : Unit → M β) : (requestUnconsume n >>= f) (rq s h t evs inp) =
    f () (rq s { h with bytesConsumed := (inp.unconsume n).position } t evs (inp.unconsume n)) := rfl

theorem rq_window_bind (g : PData → PData) (f : Unit → M β) :
    ((M.modify fun s => { s with input := g s.input }) >>= f) (rq s h t evs inp) = f () (rq s h t evs (g inp)) := rfl

/-- The raw data is handed out, and no more is collected. -/
theorem rq_finalizeClear (hcb : CallbacksOK e) (done a b : Bytes) (hk : DataHook) (hr : h.receiver = some hk) :
    requestReceiverFinalizeClear e (rq s h t evs (win (done ++ a) b done.length)) =
      (.ok (), rq s { h with receiver := none } t (evs ++ [.data hk s.txs.request (.ofBytes a)])
        (win (done ++ a) b (done ++ a).length)) := by
  have h1 : requestReceiverSendData e (rq s h t evs (win (done ++ a) b done.length)) =
      (.ok (), rq s h t (evs ++ [.data hk s.txs.request (.ofBytes a)]) (win (done ++ a) b (done ++ a).length)) := by
    unfold requestReceiverSendData
    rw [rq_state_bind, rq_window_bind (g := fun i => i.callbackData.2), rq_input, rq_req, hr, win_callback, rq_tx_bind]
    exact rq_emit _ _ _ _ _ hcb _
  unfold requestReceiverFinalizeClear
  rw [rq_state_bind, rq_req, hr]
  dsimp only
  rw [M.bind_ok (M.attempt_ok h1), rq_setReq_bind]
  rfl

theorem rq_finalizeClear_none (hr : h.receiver = none) :
    requestReceiverFinalizeClear e (rq s h t evs inp) = (.ok (), rq s h t evs inp) := by
  unfold requestReceiverFinalizeClear
  rw [rq_state_bind, rq_req, hr]
  rfl

/-- A state change other than to the headers. -/
theorem rq_change (hs : h.state ≠ .headers) : requestHandleStateChange e (rq s h t evs inp) =
    (.ok (), rq s { h with statePrevious := h.state } t evs inp) := by
  unfold requestHandleStateChange
  rw [rq_state_bind, rq_req]
  split
  next h' =>
    have : { h with statePrevious := h.state } = h := by
      cases h
      dsimp only at h'
      rw [h']
    rw [this]
    rfl
  next =>
    have : (h.state == State.headers) = false := by simpa using hs
    rw [this]
    rfl

/-- The round is over and the state has changed, but not to the headers. -/
theorem rq_round {s0 : Conn} (hg : s0.input.isGap = false)
    (h1 : handleRequestState e s0 = (.ok (), rq s h t evs inp)) (ht : h.status ≠ .tunnel) (hs : h.state ≠ .headers) :
    requestStep e s0 = (.ok none, rq s { h with statePrevious := h.state } t evs inp) :=
  requestStep_ok (by rw [hg]; rfl) h1 ht (rq_change s h t evs inp hs)

/-- The round is over and the headers, or the trailer, begin. -/
theorem rq_round_headers {s0 : Conn} (hg : s0.input.isGap = false)
    (h1 : handleRequestState e s0 = (.ok (), rq s h t evs inp)) (ht : h.status ≠ .tunnel) (hs : h.state = .headers)
    (hp : h.statePrevious ≠ .headers) (hk : DataHook)
    (hr : (t.requestProgress = .headers ∧ hk = .requestHeaderData) ∨
      (t.requestProgress = .trailer ∧ hk = .requestTrailerData)) :
    requestStep e s0 = (.ok none,
      rq s { h with statePrevious := .headers, receiver := some hk } t evs inp.resetCallbackStart) := by
  refine requestStep_ok (by rw [hg]; rfl) h1 ht ?_
  unfold requestHandleStateChange
  rw [rq_state_bind, rq_req, if_neg (by rw [hs]; exact hp)]
  have : (h.state == State.headers) = true := by rw [hs]; rfl
  rw [this]
  have h2 : requestSetReceiver e (rq s h t evs inp) =
      (.ok (), rq s { h with receiver := some hk } t evs inp.resetCallbackStart) := by
    unfold requestSetReceiver
    rw [rq_tx_bind, rq_window_bind]
    rcases hr with ⟨hr, rfl⟩ | ⟨hr, rfl⟩ <;> rw [hr] <;> rfl
  rw [M.bind_ok (show M.when true (requestSetReceiver e) _ = _ from h2), rq_setReq, hs]

end

end Model

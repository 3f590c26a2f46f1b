/-
Explicit computation of the response state machine, for callbacks that accept everything.
-/
import Verif.Lemmas.ReqRun

namespace Model

open M Spec

/-- The parser with this response side, this transaction for the current response, these further callbacks run and this
window. -/
def rp (s : Conn) (h : Half) (t : Tx) (evs : List Event) (inp : PData) : Conn :=
  { s with resp := h, txs := s.txs.set s.txs.response t, trace := s.trace ++ evs, input := inp }

section
variable {e : Env} {β : Type} (s : Conn) (h : Half) (t : Tx) (evs : List Event) (inp : PData)

theorem rp_resp : (rp s h t evs inp).resp = h := rfl
theorem rp_input : (rp s h t evs inp).input = inp := rfl
theorem rp_request : (rp s h t evs inp).txs.request = s.txs.request := rfl
theorem rp_response : (rp s h t evs inp).txs.response = s.txs.response := rfl

theorem rp_get : (rp s h t evs inp).txs.get s.txs.response = some t :=
  (Txs.lookup_put _ _ _ _).trans (if_pos rfl)

theorem rp_tx (x : Err) : responseTx e x (rp s h t evs inp) = (.ok t, rp s h t evs inp) :=
  responseTx_some (rp_get s h t evs inp)

theorem rp_tx_bind (x : Err) (f : Tx → M β) :
    (responseTx e x >>= f) (rp s h t evs inp) = f t (rp s h t evs inp) := M.bind_ok (rp_tx s h t evs inp x)

theorem rp_put (t' : Tx) : putResponse t' (rp s h t evs inp) = (.ok (), rp s h t' evs inp) := by
  show (Except.ok (), ({ rp s h t evs inp with txs := _ } : Conn)) = _
  unfold rp Txs.set
  dsimp only
  rw [Txs.put_put]

theorem rp_put_bind (t' : Tx) (f : Unit → M β) :
    (putResponse t' >>= f) (rp s h t evs inp) = f () (rp s h t' evs inp) := M.bind_ok (rp_put s h t evs inp t')

theorem rp_modify (e : Env) (g : Tx → Tx) :
    modifyResponse e g (rp s h t evs inp) = (.ok (), rp s h (g t) evs inp) := by
  unfold modifyResponse
  rw [rp_tx_bind, rp_put]

theorem rp_modify_bind (g : Tx → Tx) (f : Unit → M β) :
    (modifyResponse e g >>= f) (rp s h t evs inp) = f () (rp s h (g t) evs inp) :=
  M.bind_ok (rp_modify s h t evs inp e g)

theorem rp_setResp (g : Half → Half) : setResp g (rp s h t evs inp) = (.ok (), rp s (g h) t evs inp) := rfl

theorem rp_setResp_bind (g : Half → Half) (f : Unit → M β) :
    (setResp g >>= f) (rp s h t evs inp) = f () (rp s (g h) t evs inp) := rfl

theorem rp_state_bind (f : Conn → M β) : (M.state >>= f) (rp s h t evs inp) = f (rp s h t evs inp) (rp s h t evs inp) :=
  rfl

theorem rp_emit (hcb : CallbacksOK e) (ev : Event) :
    emit e ev (rp s h t evs inp) = (.ok (), rp s h t (evs ++ [ev]) inp) := by
  rw [emit_ok hcb]
  simp [rp]

theorem rp_emit_bind (hcb : CallbacksOK e) (ev : Event) (f : Unit → M β) :
    (emit e ev >>= f) (rp s h t evs inp) = f () (rp s h t (evs ++ [ev]) inp) := M.bind_ok (rp_emit s h t evs inp hcb ev)

theorem rp_hook (hcb : CallbacksOK e) (hk : TxHook) :
    runTxHook e hk s.txs.response (rp s h t evs inp) = (.ok (), rp s h t (evs ++ [.tx hk s.txs.response]) inp) := by
  unfold runTxHook
  rw [rp_state_bind, rp_get]
  exact rp_emit s h t evs inp hcb _

theorem rp_hook_bind (hcb : CallbacksOK e) (hk : TxHook) (f : Unit → M β) :
    (runTxHook e hk s.txs.response >>= f) (rp s h t evs inp) =
      f () (rp s h t (evs ++ [.tx hk s.txs.response]) inp) := M.bind_ok (rp_hook s h t evs inp hcb hk)

theorem rp_consume (n : Nat) : responseConsume n (rp s h t evs inp) =
    (.ok (), rp s { h with bytesConsumed := (inp.consume n).position } t evs (inp.consume n)) := rfl

theorem rp_consume_bind (n : Nat) (f : Unit → M β) : (responseConsume n >>= f) (rp s h t evs inp) =
    f () (rp s { h with bytesConsumed := (inp.consume n).position } t evs (inp.consume n)) := rfl

theorem rp_unconsume_bind (n : Nat) (f : Unit → M β) : (responseUnconsume n >>= f) (rp s h t evs inp) =
    f () (rp s { h with bytesConsumed := (inp.unconsume n).position } t evs (inp.unconsume n)) := rfl

theorem rp_window_bind (g : PData → PData) (f : Unit → M β) :
    ((M.modify fun s => { s with input := g s.input }) >>= f) (rp s h t evs inp) = f () (rp s h t evs (g inp)) := rfl

/-- The raw data is handed out, and no more is collected. -/
theorem rp_finalizeClear (hcb : CallbacksOK e) (done a b : Bytes) (hk : DataHook) (hr : h.receiver = some hk) :
    responseReceiverFinalizeClear e (rp s h t evs (win (done ++ a) b done.length)) =
      (.ok (), rp s { h with receiver := none } t (evs ++ [.data hk s.txs.response (.ofBytes a)])
        (win (done ++ a) b (done ++ a).length)) := by
  have h1 : responseReceiverSendData e (rp s h t evs (win (done ++ a) b done.length)) =
      (.ok (), rp s h t (evs ++ [.data hk s.txs.response (.ofBytes a)]) (win (done ++ a) b (done ++ a).length)) := by
    unfold responseReceiverSendData
    rw [rp_state_bind, rp_window_bind (g := fun i => i.callbackData.2), rp_input, rp_resp, hr, win_callback, rp_tx_bind]
    exact rp_emit _ _ _ _ _ hcb _
  unfold responseReceiverFinalizeClear
  rw [rp_state_bind, rp_resp, hr]
  dsimp only
  rw [M.bind_ok (M.attempt_ok h1), rp_setResp_bind]
  rfl

theorem rp_finalizeClear_none (hr : h.receiver = none) :
    responseReceiverFinalizeClear e (rp s h t evs inp) = (.ok (), rp s h t evs inp) := by
  unfold responseReceiverFinalizeClear
  rw [rp_state_bind, rp_resp, hr]
  rfl

/-- A state change other than to the headers. -/
theorem rp_change (hs : h.state ≠ .headers) : responseHandleStateChange e (rp s h t evs inp) =
    (.ok (), rp s { h with statePrevious := h.state } t evs inp) := by
  unfold responseHandleStateChange
  rw [rp_state_bind, rp_resp]
  split
  next h' =>
    have : { h with statePrevious := h.state } = h := by
      cases h
      dsimp only at h'
      rw [h']
    rw [this]
    rfl
  next =>
    have : (h.state == State.headers) = false := by simpa using hs
    rw [this]
    rfl

/-- The round is over and the state has changed, but not to the headers. -/
theorem rp_round {s0 : Conn} (hg : s0.input.isGap = false)
    (h1 : handleResponseState e s0 = (.ok (), rp s h t evs inp)) (ht : h.status ≠ .tunnel) (hs : h.state ≠ .headers) :
    responseStep e s0 = (.ok none, rp s { h with statePrevious := h.state } t evs inp) :=
  responseStep_ok (by rw [hg]; rfl) h1 ht (rp_change s h t evs inp hs)

/-- The round is over and the headers, or the trailer, begin. -/
theorem rp_round_headers {s0 : Conn} (hg : s0.input.isGap = false)
    (h1 : handleResponseState e s0 = (.ok (), rp s h t evs inp)) (ht : h.status ≠ .tunnel) (hs : h.state = .headers)
    (hp : h.statePrevious ≠ .headers) (hk : DataHook)
    (hr : (t.responseProgress = .headers ∧ hk = .responseHeaderData) ∨
      (t.responseProgress = .trailer ∧ hk = .responseTrailerData)) :
    responseStep e s0 = (.ok none,
      rp s { h with statePrevious := .headers, receiver := some hk } t evs inp.resetCallbackStart) := by
  refine responseStep_ok (by rw [hg]; rfl) h1 ht ?_
  unfold responseHandleStateChange
  rw [rp_state_bind, rp_resp, if_neg (by rw [hs]; exact hp)]
  have : (h.state == State.headers) = true := by rw [hs]; rfl
  rw [this]
  have h2 : responseSetReceiver e (rp s h t evs inp) =
      (.ok (), rp s { h with receiver := some hk } t evs inp.resetCallbackStart) := by
    unfold responseSetReceiver
    rw [rp_tx_bind, rp_window_bind]
    rcases hr with ⟨hr, rfl⟩ | ⟨hr, rfl⟩ <;> rw [hr] <;> rfl
  rw [M.bind_ok (show M.when true (responseSetReceiver e) _ = _ from h2), rp_setResp, hs]

end

end Model

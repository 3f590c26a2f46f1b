/-
The two directions of a connection: what a call on one side may do to what belongs to the other.
-/
import Verif.Spec.Message

namespace Spec

open Model

/-- A call on the request side has left everything alone that belongs to the responses. -/
structure ResponsesUntouched (e : Env) (s s' : Conn) : Prop where
  /-- What is recorded of the response in a transaction is the same as before; the transaction may be gone only if its
  response was complete before and transactions are to be removed. -/
  kept : ∀ k t, s.txs.get k = some t →
    (∃ t', s'.txs.get k = some t' ∧ responseSide t' = responseSide t) ∨
    s'.txs.get k = none ∧ t.responseProgress = .complete ∧ e.cfg.txAutoDestroy = true
  /-- Nothing is recorded of a response in transactions that are new. -/
  fresh : ∀ k t', s.txs.get k = none → s'.txs.get k = some t' → Unanswered t'
  /-- The same response is awaited or under way, and the response parser is where it was. -/
  index : s'.txs.response = s.txs.response
  machine : { s'.resp with status := .new } = { s.resp with status := .new }
  other : s'.responseDataOtherAtTxEnd = s.responseDataOtherAtTxEnd
  /-- Only its status may differ: a tunnel begins, or it no longer waits for the requests. -/
  status : s'.resp.status = s.resp.status ∨ s'.resp.status = .tunnel ∨ s.resp.status = .dataOther ∧ s'.resp.status = .data

/-- What is recorded of a request that was not seen, where a response without one has come. -/
def madeUp (t : Tx) : Tx :=
  { t with
    requestUri := some (b! "/libhtp::request_uri_not_seen")
    parsedUri := some { path := some (b! "/libhtp::request_uri_not_seen") }
    requestProgress := .complete }

/-- A call on the response side has left everything alone that belongs to requests that have begun. -/
structure RequestsUntouched (e : Env) (s s' : Conn) : Prop where
  /-- What is recorded of the request in a transaction is the same as before; the transaction may be gone only if its
  request was complete and transactions are to be removed. (The condition is that the transaction's response is not
  over before its turn.) -/
  kept : ∀ k t, s.txs.get k = some t → t.requestProgress ≠ .notStarted → t.isComplete = false ∨ k < s.txs.response →
    (∃ t', s'.txs.get k = some t' ∧ requestSide t' = requestSide t) ∨
    s'.txs.get k = none ∧ t.requestProgress = .complete ∧ e.cfg.txAutoDestroy = true
  /-- Where no request has begun, nothing is recorded of one, or one is made up. -/
  fresh : ∀ k t', (∀ t, s.txs.get k = some t → t.requestProgress = .notStarted) → s'.txs.get k = some t' →
    ∃ t, (t = { index := k } ∨ s.txs.get k = some t) ∧ (requestSide t' = requestSide t ∨ requestSide t' = requestSide (madeUp t))
  /-- The same request is awaited or under way, unless the response to one came that has not begun. -/
  index : s'.txs.request = s.txs.request ∨ ∃ k, s.txs.response ≤ k ∧ k ≤ s'.txs.response ∧
    ∀ t, s.txs.get k = some t → t.requestProgress = .notStarted ∨ t.isComplete = true
  /-- The request parser is where it was: only its status and its state may differ, and the state only by going to the
  end of the request (C80 says when). -/
  machine : { s'.req with status := .new, state := .none } = { s.req with status := .new, state := .none } ∧
    (s'.req.state = s.req.state ∨ s'.req.state = .finalize)

/-- A call on the request side. -/
def RequestCall : Op → Prop
  | .request _ | .requestClose => True
  | _ => False

/-- A call on the response side. -/
def ResponseCall : Op → Prop
  | .response _ => True
  | _ => False

end Spec

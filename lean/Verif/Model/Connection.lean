/-
Model of the public operations of the connection parser (src/connection_parser.rs) and of histories of
such operations.
-/
import Verif.Model.ConnResponse

namespace Model

open M

/-- What the user can feed: data or a gap (src/connection_parser.rs:205-272, the `From` instances of
`ParserData`). -/
inductive Chunk where
  | data (b : Bytes)
  | gap (n : Nat)
  deriving DecidableEq, Repr

/-- The window on a fresh chunk. -/
def Chunk.toPData : Chunk → PData
  | .data b => .ofBytes b
  | .gap n => .ofGap n

/-- src/connection_parser.rs:598-625 `open`. -/
def openConn : M Unit := modify fun s =>
  if s.req.status ≠ .new ∨ s.resp.status ≠ .new then s
  else { s with req := { s.req with status := .open }, resp := { s.resp with status := .open } }

/-- src/connection_parser.rs:515-517, 528-533: a stream that has not failed is marked closed. -/
def Half.markClosed (h : Half) : Half := { h with status := if h.status = .error then .error else .closed }

/-- src/connection_parser.rs:513-521 `request_close`. -/
def requestClose (e : Env) : M (Option StreamState) := do
  setReq Half.markClosed
  requestData e {}

/-- src/connection_parser.rs:967-984: the transactions `flush_incomplete_transactions` reports. -/
def Txs.incomplete (s : Txs) : List Nat :=
  (s.map.filter fun (_, t) => t.isStarted && !t.isComplete).map fun (_, t) => t.index

/-- src/connection_parser.rs:975-983: one transaction is reported (the result is ignored) and removed. -/
def flushOne (e : Env) (index : Nat) : M Unit := do
  let _ ← attempt (runTxHook e .transactionComplete index)
  when e.cfg.txAutoDestroy (modify fun s => { s with txs := s.txs.remove index })

/-- src/connection_parser.rs:967-984 `flush_incomplete_transactions`. -/
def flushAll (e : Env) : List Nat → M Unit
  | [] => pure ()
  | i :: is => do
    flushOne e i
    flushAll e is

/-- src/connection_parser.rs:524-542 `close`. The result pairs what the two streams returned. -/
def closeConn (e : Env) : M (Option StreamState × Option StreamState) := do
  modify fun s => { s with req := s.req.markClosed, resp := s.resp.markClosed }
  let a ← requestData e {}
  let b ← responseData e {}
  let s ← state
  when e.cfg.flushIncomplete (flushAll e s.txs.incomplete)
  pure (a, b)

/-- src/connection_parser.rs:410-417 `request` called by the user (`htp_connp_get_request_tx` of
src/c_api/connection_parser.rs:285-294 does the same): the current request transaction, created if it does
not exist. -/
def askRequest (e : Env) : M (Option Tx) := fun s =>
  (.ok (s.txs.requestMut e.cfg.maxTx).1, { s with txs := (s.txs.requestMut e.cfg.maxTx).2 })

/-- src/connection_parser.rs:420-427 `response` called by the user (`htp_connp_get_response_tx` of
src/c_api/connection_parser.rs:268-277 does the same). -/
def askResponse (e : Env) : M (Option Tx) := fun s =>
  (.ok (s.txs.responseMut e.cfg.maxTx).1, { s with txs := (s.txs.responseMut e.cfg.maxTx).2 })

/-- The public operations that change a connection parser. `removeTx` is src/connection_parser.rs:956-958
`remove_tx`; `askRequest` and `askResponse` are `request` and `response`, which create the transaction
they return. -/
inductive Op where
  | open
  | request (c : Chunk)
  | response (c : Chunk)
  | requestClose
  | close
  | removeTx (index : Nat)
  | askRequest
  | askResponse
  deriving DecidableEq, Repr

/-- One operation: its result (the stream state returned, if any) and its effect. -/
def Op.run (e : Env) : Op → M (Option StreamState)
  | .open => do openConn; pure none
  | .request c => requestData e c.toPData
  | .response c => responseData e c.toPData
  | .requestClose => Model.requestClose e
  | .close => do let _ ← closeConn e; pure none
  | .removeTx i => do modify fun s => { s with txs := s.txs.remove i }; pure none
  | .askRequest => do let _ ← Model.askRequest e; pure none
  | .askResponse => do let _ ← Model.askResponse e; pure none

/-- The state after one operation, whatever its result. -/
def Op.after (e : Env) (s : Conn) (op : Op) : Conn := (op.run e s).2

/-- The state of a new parser after a history of operations. -/
def Conn.history (e : Env) (ops : List Op) : Conn := ops.foldl (Op.after e) {}

end Model

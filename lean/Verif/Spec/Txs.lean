/-
Specification of the transaction store as seen through its public operations: a history is a list of
operations; a store is observed through its two cursors and `get`.
-/
import Verif.Model.Transactions

namespace Spec
open Model

/-- The public operations on the store. `update k f` is a write through `get_mut` (the library never
changes the index of a transaction, and `f` must not either). -/
inductive TxOp where
  | request | response | requestNext | responseNext
  | remove (k : Nat)
  | update (k : Nat) (f : Tx → Tx)

/-- The only requirement on a history. -/
def TxOp.Keeps : TxOp → Prop
  | .update _ f => ∀ t, (f t).index = t.index
  | _ => True

/-- One operation. -/
def TxOp.apply (maxTx : Nat) (auto : Bool) (s : Txs) : TxOp → Txs
  | .request => (s.requestMut maxTx).2
  | .response => (s.responseMut maxTx).2
  | .requestNext => s.requestNext auto
  | .responseNext => s.responseNext auto
  | .remove k => s.remove k
  | .update k f => match s.get k with
    | some t => s.set k (f t)
    | none => s

/-- A history, starting from the empty store. -/
def history (maxTx : Nat) (auto : Bool) (ops : List TxOp) : Txs :=
  ops.foldl (TxOp.apply maxTx auto) {}

/-- `ks` lists live transactions without repetition. -/
def Live (s : Txs) (ks : List Nat) : Prop := ks.Nodup ∧ ∀ k ∈ ks, (s.get k).isSome

/-- The number of times an operation of a kind occurs. -/
def countRequestNext : List TxOp → Nat
  | [] => 0
  | .requestNext :: l => countRequestNext l + 1
  | _ :: l => countRequestNext l
def countResponseNext : List TxOp → Nat
  | [] => 0
  | .responseNext :: l => countResponseNext l + 1
  | _ :: l => countResponseNext l

end Spec

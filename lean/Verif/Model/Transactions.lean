/-
Model of src/transactions.rs: the transactions of a connection.
-/
import Verif.Model.Transaction

namespace Model

/-- src/transactions.rs:9-15 `struct Transactions`. The B-tree map is an association list sorted by
key. Indices are unbounded natural numbers: the wrapping of `usize` after 2^64 transactions is not
modelled. -/
structure Txs where
  request : Nat := 0
  response : Nat := 0
  map : List (Nat × Tx) := []
  deriving Repr, DecidableEq

namespace Txs

/-- `BTreeMap::get`. -/
def lookup (m : List (Nat × Tx)) (k : Nat) : Option Tx := m.lookup k

/-- `BTreeMap::insert`, or writing through `get_mut`. -/
def put (k : Nat) (t : Tx) : List (Nat × Tx) → List (Nat × Tx)
  | [] => [(k, t)]
  | (j, u) :: m => if k < j then (k, t) :: (j, u) :: m else if k = j then (k, t) :: m else (j, u) :: put k t m

/-- `BTreeMap::remove`. -/
def erase (k : Nat) (m : List (Nat × Tx)) : List (Nat × Tx) := m.filter (·.1 != k)

/-- src/transactions.rs:143-145 `get`. -/
def get (s : Txs) (k : Nat) : Option Tx := lookup s.map k

/-- src/transactions.rs:148-150 `get_mut` followed by a write. -/
def set (s : Txs) (k : Nat) (t : Tx) : Txs := { s with map := put k t s.map }

/-- src/transactions.rs:138-140 `remove`. -/
def remove (s : Txs) (k : Nat) : Txs := { s with map := erase k s.map }

/-- src/transactions.rs:32-44 `size`. -/
def size (s : Txs) : Nat :=
  let k := max s.request s.response
  match s.get k with
  | some t => t.index + (if t.isStarted then 1 else 0)
  | none => k

/-- The common part of src/transactions.rs:60-74 and 90-104: the transaction at `k`, created when
missing unless the store is full. -/
def entry (maxTx : Nat) (s : Txs) (k : Nat) : Option Tx × Txs :=
  match s.get k with
  | some t => (some t, s)
  | none => if s.map.length ≥ maxTx then (none, s) else (some { index := k }, s.set k { index := k })

/-- src/transactions.rs:60-74 `request_mut` and 52-57 `request`. -/
def requestMut (maxTx : Nat) (s : Txs) : Option Tx × Txs := s.entry maxTx s.request

/-- src/transactions.rs:90-104 `response_mut` and 82-87 `response`. -/
def responseMut (maxTx : Nat) (s : Txs) : Option Tx × Txs := s.entry maxTx s.response

/-- src/transactions.rs:125-134 `check_free`. -/
def checkFree (autoDestroy : Bool) (s : Txs) (k : Nat) : Txs :=
  if autoDestroy then
    match s.get k with
    | some t => if t.isComplete then s.remove k else s
    | none => s.remove k
  else s

/-- src/transactions.rs:109-113 `request_next`. -/
def requestNext (autoDestroy : Bool) (s : Txs) : Txs :=
  let s := s.checkFree autoDestroy s.request
  { s with request := s.request + 1 }

/-- src/transactions.rs:118-122 `response_next`. -/
def responseNext (autoDestroy : Bool) (s : Txs) : Txs :=
  let s := s.checkFree autoDestroy s.response
  { s with response := s.response + 1 }

end Txs

end Model

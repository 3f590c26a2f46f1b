/-
What is recorded of a transaction only grows.
-/
import Verif.Model.Connection

namespace Spec

open Model

/-- Every flag that is raised in `a` is raised in `b`. -/
def Raised (a b : Flags) : Prop := ∀ i : Nat, a.testBit i = true → b.testBit i = true

/-- `t'` is the transaction `t` some time later: it has the same index, and no observation has been taken back. -/
structure Later (t t' : Tx) : Prop where
  index : t'.index = t.index
  flags : Raised t.flags t'.flags
  interim : t.seen100Continue = true → t'.seen100Continue = true
  upgrade : t.isHttp2Upgrade = true → t'.isHttp2Upgrade = true

/-- The transaction `t` with index `k` is there in the state `s`, perhaps some time later. -/
def Survives (k : Nat) (t : Tx) (s : Conn) : Prop := ∃ t', s.txs.get k = some t' ∧ Later t t'

end Spec

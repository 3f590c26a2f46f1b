/-
How much body data has been handed to the callbacks of a transaction.
-/
import Verif.Model.Connection

namespace Spec

open Model

/-- The number of bytes an event hands to the callbacks `h` of transaction `k`. A gap hands out none. -/
def handedBy (h : DataHook) (k : Nat) : Event → Nat
  | .data h' i d => if h' = h ∧ i = k ∧ d.gapLen = none then (d.data.getD []).length else 0
  | .tx _ _ => 0

/-- The number of bytes handed to the callbacks `h` of transaction `k` so far. -/
def handed (h : DataHook) (k : Nat) (tr : List Event) : Nat := (tr.map (handedBy h k)).sum

/-- A length and a number of bytes agree: lengths are counted in 64 bits. -/
def Counts (len bytes : Nat) : Prop := len = bytes % 2 ^ 64

end Spec

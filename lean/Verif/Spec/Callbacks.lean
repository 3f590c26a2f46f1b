/-
Whose callbacks are run: those of the requests and those of the responses.
-/
import Verif.Model.Connection

namespace Spec

open Model

/-- The callbacks of a request and the one for the end of a transaction, with the index of the transaction. -/
def requestCallback : Event → Option Nat
  | .tx .requestStart i | .tx .requestUriNormalize i | .tx .requestLine i | .tx .requestHeaders i | .tx .requestTrailer i
  | .tx .requestComplete i | .tx .transactionComplete i => some i
  | .data .requestHeaderData i _ | .data .requestTrailerData i _ | .data .requestBodyDataTx i _ | .data .requestBodyData i _ => some i
  | _ => none

/-- The callbacks of a response and the one for the end of a transaction, with the index of the transaction. -/
def responseCallback : Event → Option Nat
  | .tx .responseStart i | .tx .responseLine i | .tx .responseHeaders i | .tx .responseTrailer i
  | .tx .responseComplete i | .tx .transactionComplete i => some i
  | .data .responseHeaderData i _ | .data .responseTrailerData i _ | .data .responseBodyDataTx i _ | .data .responseBodyData i _ => some i
  | _ => none

/-- The callbacks run between two states: they all belong to the side given by `callback`, and are for the transactions
with an index from `lo` to `hi`. -/
def RunsOnly (callback : Event → Option Nat) (lo hi : Nat) (evs : List Event) : Prop :=
  ∀ ev ∈ evs, ∃ i, callback ev = some i ∧ lo ≤ i ∧ i ≤ hi

end Spec

/-
What the answer of a call tells about how much of the chunk was consumed.
-/
import Verif.Spec.Conn

namespace Spec

open Model

/-- The callbacks and the parameter processor do not answer with the two statuses by which the parser itself says that it
has used up the chunk. -/
structure Definite (e : Env) : Prop where
  hook : ∀ past ev st, e.hook past ev = .error st → st ≠ .data ∧ st ≠ .dataBuffer
  processor : ∀ f, e.parameterProcessor = some f → ∀ name value st, f name value = .error st → st ≠ .data ∧ st ≠ .dataBuffer

/-- The answer of a call and what it left, for a stream whose count of consumed bytes is `consumed`: the answer `DATA` is
given only when the whole chunk was consumed, `DATA_OTHER` only when it was not. -/
structure Candid (consumed : Conn → Nat) (c : Chunk) (r : Option StreamState) (s' : Conn) : Prop where
  data : r = some .data → consumed s' = chunkLength c
  other : r = some .dataOther → consumed s' < chunkLength c

end Spec

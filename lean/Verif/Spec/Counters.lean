/-
What the two data counters of a connection are expected to count.
-/
import Verif.Spec.Conn

namespace Spec

open Model

/-- The number of bytes, data and gaps, given to either side by these calls. -/
def requestBytes : List Op → Nat
  | [] => 0
  | .request c :: ops => chunkLength c + requestBytes ops
  | _ :: ops => requestBytes ops

def responseBytes : List Op → Nat
  | [] => 0
  | .response c :: ops => chunkLength c + responseBytes ops
  | _ :: ops => responseBytes ops

/-- A stream that gives all data the same answer. -/
def Over (h : Half) : Prop := h.status = .stop ∨ h.status = .error

instance (h : Half) : Decidable (Over h) := inferInstanceAs (Decidable (_ ∨ _))

/-- A stream is over before none of these calls. -/
def NeverOver (e : Env) (side : Conn → Half) : List Op → Conn → Prop
  | [], _ => True
  | op :: ops, s => ¬ Over (side s) ∧ NeverOver e side ops (op.after e s)

instance instDecidableNeverOver (e : Env) (side : Conn → Half) : (ops : List Op) → (s : Conn) → Decidable (NeverOver e side ops s)
  | [], _ => .isTrue trivial
  | op :: ops, s =>
    have := instDecidableNeverOver e side ops (op.after e s)
    inferInstanceAs (Decidable (_ ∧ _))

/-- The number of bytes the calls consumed on the request side, as the library reports it after each. -/
def requestConsumed (e : Env) : List Op → Conn → Nat
  | [], _ => 0
  | .request c :: ops, s => ((Op.request c).after e s).req.bytesConsumed + requestConsumed e ops ((Op.request c).after e s)
  | op :: ops, s => requestConsumed e ops (op.after e s)

end Spec

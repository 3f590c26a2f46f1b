/-
Specification of running a list of callbacks, independent of the model's loop.
-/
import Verif.Model.Hook

namespace Spec
open Model

/-- Calling `cb` in state `s` is accepted (answers OK or DECLINED) and leads to `s'`. -/
inductive Accepts {σ : Type} : Callback σ → σ → σ → Prop
  | extOk {f s s'} : f s = (Status.ok, s') → Accepts (.external f) s s'
  | extDeclined {f s s'} : f s = (Status.declined, s') → Accepts (.external f) s s'
  | natOk {f s s'} : f s = (.ok (), s') → Accepts (.native f) s s'
  | natDeclined {f s s'} : f s = (.error .declined, s') → Accepts (.native f) s s'

/-- Calling `cb` in state `s` fails with `e` and leads to `s'`. -/
inductive Fails {σ : Type} : Callback σ → σ → Status → σ → Prop
  | ext {f s e s'} : f s = (e, s') → e ≠ .ok → e ≠ .declined → Fails (.external f) s e s'
  | nat {f s e s'} : f s = (.error e, s') → e ≠ .declined → Fails (.native f) s e s'

/-- Calling the callbacks one after the other, each exactly once, all accepted. -/
inductive AcceptsAll {σ : Type} : List (Callback σ) → σ → σ → Prop
  | nil {s} : AcceptsAll [] s s
  | cons {cb cbs s s' s''} : Accepts cb s s' → AcceptsAll cbs s' s'' → AcceptsAll (cb :: cbs) s s''

end Spec

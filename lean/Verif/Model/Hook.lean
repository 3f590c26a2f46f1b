/-
Model of src/hook.rs and of the status codes of src/lib.rs.
-/
import Verif.Basic

namespace Model

/-- src/lib.rs:12-43 `enum HtpStatus`. -/
inductive Status where
  | errorReserved | error | declined | ok | data | dataOther | stop | dataBuffer | statusReserved
  deriving Repr, DecidableEq

/-- src/hook.rs:152-157 `enum Callback`. A callback may read and change everything it is given; this
is the state `σ` (parser, transaction, data and the callback's own world). A native callback returns
`Result<()>`, an external one a status. -/
inductive Callback (σ : Type) where
  | external (f : σ → Status × σ)
  | native (f : σ → Except Status Unit × σ)

/-- src/hook.rs:38-41 `struct Hook`. -/
abbrev Hook (σ : Type) := List (Callback σ)

/-- src/hook.rs:53-55 `Hook::register`. -/
def Hook.register {σ : Type} (h : Hook σ) (f : σ → Except Status Unit × σ) : Hook σ :=
  h ++ [.native f]

/-- src/hook.rs:58-60 `Hook::register_extern`. -/
def Hook.registerExtern {σ : Type} (h : Hook σ) (f : σ → Status × σ) : Hook σ :=
  h ++ [.external f]

/-- src/hook.rs:98-118 `DataHook::run_all`, src/hook.rs:127-146 `LogHook::run_all` and the loop of
src/hook.rs:73-88 `TxHook::run_all` (the three loops are the same). -/
def Hook.runAll {σ : Type} : Hook σ → σ → Except Status Unit × σ
  | [], s => (.ok (), s)
  | .external f :: cbs, s =>
    let (result, s) := f s
    if result ≠ .ok ∧ result ≠ .declined then (.error result, s) else Hook.runAll cbs s
  | .native f :: cbs, s =>
    match f s with
    | (.ok _, s) => Hook.runAll cbs s
    | (.error e, s) => if e ≠ .declined then (.error e, s) else Hook.runAll cbs s

/-- src/hook.rs:68-91 `TxHook::run_all`: the callbacks run only if the transaction exists. -/
def Hook.runAllTx {σ : Type} (h : Hook σ) (txExists : σ → Bool) (s : σ) : Except Status Unit × σ :=
  if txExists s then h.runAll s else (.ok (), s)

end Model

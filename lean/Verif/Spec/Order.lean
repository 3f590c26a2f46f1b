/-
The order of the callbacks of a request, and which transaction a message belongs to.
-/
import Verif.Spec.Conn

namespace Spec

open Model

/-- The stages of a request, in their order. -/
inductive Stage where
  | start | line | headers | body | complete
  deriving DecidableEq, Repr

/-- The place of a stage. -/
def Stage.rank : Stage → Nat
  | .start => 0
  | .line => 1
  | .headers => 2
  | .body => 3
  | .complete => 4

/-- The request callbacks: for the transaction with which index, and at which stage. The raw header data
is reported with the headers. The trailer counts with the body (body data may follow it:
`C36_body_after_trailer`). -/
def requestStage : Event → Option (Nat × Stage)
  | .tx .requestStart i => some (i, .start)
  | .tx .requestUriNormalize i => some (i, .line)
  | .tx .requestLine i => some (i, .line)
  | .data .requestHeaderData i _ => some (i, .headers)
  | .tx .requestHeaders i => some (i, .headers)
  | .data .requestBodyDataTx i _ => some (i, .body)
  | .data .requestBodyData i _ => some (i, .body)
  | .data .requestTrailerData i _ => some (i, .body)
  | .tx .requestTrailer i => some (i, .body)
  | .tx .requestComplete i => some (i, .complete)
  | _ => none

/-- The first of two request callbacks may precede the second: it belongs to an earlier transaction, or to
the same one and an earlier stage, or to the same stage unless that is the start or the completion, which
happen once. -/
def Before (a b : Nat × Stage) : Prop :=
  a.1 < b.1 ∨ a.1 = b.1 ∧ (a.2.rank < b.2.rank ∨ a.2 = b.2 ∧ a.2 ≠ .start ∧ a.2 ≠ .complete)

instance (a b : Nat × Stage) : Decidable (Before a b) := by unfold Before; infer_instance

/-- The transactions for which this callback was run, in order. -/
def hookRuns (h : TxHook) (trace : List Event) : List Nat :=
  trace.filterMap fun
    | .tx h' i => if h' = h then some i else none
    | .data .. => none

/-- The callbacks of a response (the raw header data aside), with the index of the transaction. -/
def responseIndex : Event → Option Nat
  | .tx .responseStart i => some i
  | .tx .responseLine i => some i
  | .tx .responseHeaders i => some i
  | .data .responseBodyDataTx i _ => some i
  | .data .responseBodyData i _ => some i
  | .tx .responseTrailer i => some i
  | .tx .responseComplete i => some i
  | _ => none

/-- The callbacks for the end of a request and for the end of a transaction do not fail. -/
def EndsAccepted (e : Env) : Prop :=
  ∀ trace i, e.hook trace (.tx .requestComplete i) = .ok () ∧
    e.hook trace (.tx .transactionComplete i) = .ok ()

/-- The states of a connection parser on which no response came before the request it answers: feeding
response data has never moved the index of the current request (`request_index`). -/
inductive Requested (e : Env) : Conn → Prop
  | new : Requested e {}
  | call {s s' : Conn} (op : Op) (r : Option StreamState) : Requested e s → op.run e s = (.ok r, s') →
      (∀ c, op = .response c → s'.txs.request = s.txs.request) → Requested e s'

/-- Do all these calls return, and does no response data move the index of the current request? -/
def allRequested (e : Env) : Conn → List Op → Bool
  | _, [] => true
  | s, op :: ops =>
    match op.run e s with
    | (.ok _, s') =>
      (match op with
        | .response _ => s'.txs.request == s.txs.request
        | _ => true) && allRequested e s' ops
    | (.error _, _) => false

theorem Requested.foldl {e : Env} (ops : List Op) : ∀ {s : Conn}, Requested e s →
    allRequested e s ops = true → Requested e (ops.foldl (Op.after e) s) := by
  induction ops with
  | nil => exact fun h _ => h
  | cons op ops ih =>
    intro s h ho
    unfold allRequested at ho
    split at ho
    next r s' hr =>
      have : Op.after e s op = s' := congrArg Prod.snd hr
      rw [List.foldl_cons, this]
      rw [Bool.and_eq_true] at ho
      refine ih (.call op r h hr ?_) ho.2
      rintro c rfl
      simpa using ho.1
    next => cases ho

theorem Requested.history {e : Env} (ops : List Op) (h : allRequested e {} ops = true) :
    Requested e (Conn.history e ops) := .foldl ops .new h

end Spec

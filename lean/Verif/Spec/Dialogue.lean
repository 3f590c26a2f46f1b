/-
Conversations of a client and a server on one connection, as the library sees them.
-/
import Verif.Spec.Answer

namespace Spec

open Model

/-- The data of one call: some requests, or some responses. -/
inductive Turn where
  | ask (qs : List Request)
  | answer (rs : List Response)

/-- The call. -/
def Turn.op : Turn → Op
  | .ask qs => .request (.data (qs.flatMap Request.render))
  | .answer rs => .response (.data (rs.flatMap Response.render))

/-- The requests made, the responses given. -/
def Turn.asked : Turn → List Request
  | .ask qs => qs
  | .answer _ => []
def Turn.answered : Turn → List Response
  | .ask _ => []
  | .answer rs => rs

/-- These requests may be sent in one call: they are well-formed, and their request lines keep to the limit. -/
structure Sendable (cfg : Config) (qs : List Request) : Prop where
  nonempty : qs ≠ []
  wellFormed : ∀ q ∈ qs, q.WellFormed
  limit : ∀ q ∈ qs, q.line.length + 2 ≤ cfg.fieldLimit

/-- These responses may be sent in one call, when the requests `pending` are waiting for theirs. None of them refuses a
request that has the field "Expect". -/
structure Answers (cfg : Config) (pending : List Request) (rs : List Response) : Prop where
  nonempty : rs ≠ []
  asked : rs.length ≤ pending.length
  wellFormed : ∀ (i : Nat) (q : Request) (r : Response), pending[i]? = some q → rs[i]? = some r → r.WellFormed (decide (q.method = b! "HEAD"))
  notRefused : ∀ (i : Nat) (q : Request) (r : Response), pending[i]? = some q → rs[i]? = some r →
    (∀ h ∈ q.headers ++ q.body.trailer, ¬ EqNocase h.name (b! "expect")) ∨ ¬ (400 ≤ r.code ∧ r.code ≤ 499)
  filled : ∀ r ∈ rs.dropLast, r.Filled
  limit : ∀ r ∈ rs, r.line.length + 2 ≤ cfg.fieldLimit

/-- A conversation, when the requests `pending` are waiting for their responses and `held` transactions are held: no
response comes before its request, and there is room for the requests. -/
def Sensible (cfg : Config) : List Request → Nat → List Turn → Prop
  | _, _, [] => True
  | pending, held, .ask qs :: ts =>
    Sendable cfg qs ∧ held + qs.length ≤ cfg.maxTx ∧ Sensible cfg (pending ++ qs) (held + qs.length) ts
  | pending, held, .answer rs :: ts =>
    Answers cfg pending rs ∧
    Sensible cfg (pending.drop rs.length) (if cfg.txAutoDestroy then held - rs.length else held) ts

/-- The callbacks run in a conversation; `a` and `b` are the indices of the next request and the next response. -/
def conversation : Nat → Nat → List Turn → List Event
  | _, _, [] => []
  | a, b, .ask qs :: ts => requestCallbacks a qs ++ conversation (a + qs.length) b ts
  | a, b, .answer rs :: ts => responseCallbacks b rs ++ conversation a (b + rs.length) ts

/-- What the calls answer. -/
def answersTo (e : Env) : List Op → Conn → List (Except Err (Option StreamState))
  | [], _ => []
  | op :: ops, s => (op.run e s).1 :: answersTo e ops (op.after e s)

/-- The transaction `k` of a request and its response (`none`: not yet given). -/
def Exchanged (auto : Bool) (txs : Txs) (k : Nat) (q : Request) : Option Response → Prop
  | some r => if auto then txs.get k = none else ∃ t, txs.get k = some t ∧ Records t k q ∧ RecordsResponse t r
  | none => ∃ t, txs.get k = some t ∧ Records t k q ∧ Unanswered t

end Spec

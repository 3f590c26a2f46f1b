/-
Conversations of a client and a server in which requests and responses come in pieces, in any order.
-/
import Verif.Spec.Dialogue
import Verif.Spec.Segmented

namespace Spec

open Model

/-- A call with a piece of the requests, or with a piece of the responses. -/
inductive Move where
  | ask (c : List Token)
  | answer (c : List Token)

/-- The call. -/
def Move.op : Move → Op
  | .ask c => .request (.data (bytesOf c))
  | .answer c => .response (.data (bytesOf c))

/-- The pieces of the requests, in their order. -/
def askedIn : List Move → List (List Token)
  | [] => []
  | .ask c :: ms => c :: askedIn ms
  | .answer _ :: ms => askedIn ms

/-- The pieces of the responses, in their order. -/
def answeredIn : List Move → List (List Token)
  | [] => []
  | .ask _ :: ms => answeredIn ms
  | .answer c :: ms => c :: answeredIn ms

/-- It is clear from these pieces that the first `n` messages are over: a piece ends where they end, or the first line of
the next message has come completely. -/
def Settled {α : Type} (tokens line : α → List Token) (msgs : List α) (n : Nat) (pieces : List (List Token)) : Prop :=
  n ≤ msgs.length ∧
  ((∃ early late, pieces = early ++ late ∧ early.flatten = (msgs.take n).flatMap tokens) ∨
   (∃ m rest, msgs[n]? = some m ∧ pieces.flatten = (msgs.take n).flatMap tokens ++ (line m ++ rest)))

/-- The requests have gone out, or at least it is clear that the first `n` of them are over. -/
abbrev RequestsOver (qs : List Request) (n : Nat) (pieces : List (List Token)) : Prop :=
  Settled Request.tokens Request.lineTokens qs n pieces

/-- The same for responses. -/
abbrev ResponsesOver (rs : List Response) (n : Nat) (pieces : List (List Token)) : Prop :=
  Settled Response.tokens Response.lineTokens rs n pieces

/-- These calls make up a conversation with the requests `qs` and the responses `rs`, when `held` transactions are held
at its start. -/
structure Interleaved (cfg : Config) (held : Nat) (qs : List Request) (rs : List Response) (moves : List Move) : Prop where
  /-- The requests are well-formed, have no field "Expect", and keep to the limits. -/
  requests : ∀ q ∈ qs, q.WellFormed ∧ q.line.length + 2 ≤ cfg.fieldLimit ∧
    ∀ h ∈ q.headers ++ q.body.trailer, ¬ EqNocase h.name (b! "expect") ∧ h.render.length ≤ cfg.fieldLimit
  /-- So do the responses. -/
  responses : ∀ (i : Nat) (q : Request) (r : Response), qs[i]? = some q → rs[i]? = some r →
    r.WellFormed (decide (q.method = b! "HEAD")) ∧ r.line.length + 2 ≤ cfg.fieldLimit ∧
    ∀ h ∈ r.headers ++ r.body.trailer, h.render.length + 1 ≤ cfg.fieldLimit
  /-- No piece is empty. -/
  nonempty : ∀ c ∈ askedIn moves ++ answeredIn moves, c ≠ []
  /-- The pieces make up the requests and the responses. -/
  asked : (askedIn moves).flatten = qs.flatMap Request.tokens
  answered : (answeredIn moves).flatten = rs.flatMap Response.tokens
  /-- No piece of a response comes before it is clear that its request is over. -/
  causal : ∀ (i : Nat) (c : List Token), moves[i]? = some (.answer c) →
    ∃ n, RequestsOver qs n (askedIn (moves.take i)) ∧
      (answeredIn (moves.take i) ++ [c]).flatten <+: (rs.take n).flatMap Response.tokens
  /-- Where a response with an empty header block or an empty trailer ends, a piece ends. -/
  filled : ∀ (i : Nat) (r : Response), rs[i]? = some r → ¬ r.Filled →
    ∃ early late, answeredIn moves = early ++ late ∧ early.flatten = (rs.take (i + 1)).flatMap Response.tokens
  /-- There is room for the transactions: when a call reaches the `n`-th request, the transactions of the first `k` may have
  been removed. -/
  room : ∀ (i : Nat) (c : List Token), moves[i]? = some (.ask c) →
    ∃ n k, (askedIn (moves.take i) ++ [c]).flatten <+: (qs.take n).flatMap Request.tokens ∧
      ResponsesOver rs k (answeredIn (moves.take i)) ∧
      held + n ≤ cfg.maxTx + if cfg.txAutoDestroy then k else 0

end Spec

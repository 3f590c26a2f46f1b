/-
What the properties of the connection parser speak about: the states a parser can be in, the length of a
chunk, the loop over the state machine, and an environment for examples.
-/
import Verif.Model.Connection

deriving instance DecidableEq for Except

namespace Spec

open Model

/-- The states of a connection parser: a new one, and what it becomes by any call, with any callbacks,
that returned (and did not panic). -/
inductive Reachable (e : Env) : Conn → Prop
  | new : Reachable e {}
  | call {s s' : Conn} (op : Op) (r : Option StreamState) :
      Reachable e s → op.run e s = (.ok r, s') → Reachable e s'

/-- The number of bytes a chunk stands for. -/
def chunkLength : Chunk → Nat
  | .data b => b.length
  | .gap n => n

/-- The bytes kept for an incomplete line or header, requests and responses. -/
def requestBuffered (s : Conn) : Nat := s.req.buf.length + (s.req.header.getD []).length
def responseBuffered (s : Conn) : Nat := s.resp.buf.length + (s.resp.header.getD []).length

/-- The same parser, told that a chunk with this content is about to be processed: nothing of it is
consumed. -/
def requestOffered (c : Chunk) (s : Conn) : Conn :=
  { s with req := { s.req with bytesConsumed := 0 }, input := c.toPData }
def responseOffered (c : Chunk) (s : Conn) : Conn :=
  { s with resp := { s.resp with bytesConsumed := 0 }, input := c.toPData }

/-- The state in which the loop over the state machine starts when this chunk is fed: the chunk is counted,
a response stream that waited for the requests is woken, and a gap is noted. -/
def requestLoopStart (e : Env) (c : Chunk) (s : Conn) : Conn :=
  (requestEarly e { requestOffered c s with
    requestChunkCount := s.requestChunkCount + 1
    requestDataCounter := wrapAdd s.requestDataCounter (chunkLength c)
    resp := if s.resp.status = .dataOther then { s.resp with status := .data } else s.resp }).2
def responseLoopStart (e : Env) (c : Chunk) (s : Conn) : Conn :=
  (responseEarly e { responseOffered c s with
    responseDataCounter := wrapAdd s.responseDataCounter (chunkLength c) }).2

/-- `Rounds step k s s'`: from `s`, the loop made `k` rounds that did not end it, and is in `s'`. -/
inductive Rounds (step : M (Option StreamState)) : Nat → Conn → Conn → Prop
  | zero (s : Conn) : Rounds step 0 s s
  | next {k : Nat} {s s' s'' : Conn} : step s = (.ok none, s') → Rounds step k s' s'' →
      Rounds step (k + 1) s s''

/-- Is this chunk accepted by the request stream (counted, and looked at)? -/
def requestAccepts (s : Conn) (c : Chunk) : Prop :=
  s.req.status ≠ .stop ∧ s.req.status ≠ .error ∧ (chunkLength c = 0 → s.req.status = .closed)
def responseAccepts (s : Conn) (c : Chunk) : Prop :=
  s.resp.status ≠ .stop ∧ s.resp.status ≠ .error ∧ (chunkLength c = 0 → s.resp.status = .closed)

instance (s : Conn) (c : Chunk) : Decidable (requestAccepts s c) := by
  unfold requestAccepts; infer_instance
instance (s : Conn) (c : Chunk) : Decidable (responseAccepts s c) := by
  unfold responseAccepts; infer_instance

/-- Only feeds of the two streams. -/
def Feeds (ops : List Op) : Prop := ∀ op ∈ ops, (∃ c, op = .request c) ∨ ∃ c, op = .response c

/-- An environment for examples: the default configuration, callbacks that return OK, and a decompressor
that hands out what it is given. -/
def sampleEnv : Env where
  cfg := {}
  ovf := true
  ip := fun _ => none
  base64 := fun b => some b
  parameterProcessor := none
  hook := fun _ _ => .ok ()
  decoder := fun _ _ _ d => .call d fun ok => .done ok

/-- The same with one hook that answers a given error. -/
def failingEnv (h : TxHook) (st : Status) : Env :=
  { sampleEnv with
    hook := fun _ ev =>
      match ev with
      | .tx h' _ => if h' = h then .error st else .ok ()
      | _ => .ok () }

/-- Do all these calls return? -/
def allReturn (e : Env) : Conn → List Op → Bool
  | _, [] => true
  | s, op :: ops =>
    match op.run e s with
    | (.ok _, s') => allReturn e s' ops
    | (.error _, _) => false

theorem Reachable.foldl {e : Env} (ops : List Op) : ∀ {s : Conn}, Reachable e s → allReturn e s ops = true →
    Reachable e (ops.foldl (Op.after e) s) := by
  induction ops with
  | nil => exact fun h _ => h
  | cons op ops ih =>
    intro s h ho
    unfold allReturn at ho
    split at ho
    next r s' hr =>
      have : Op.after e s op = s' := congrArg Prod.snd hr
      rw [List.foldl_cons, this]
      exact ih (.call op r h hr) ho
    next => cases ho

theorem Reachable.history {e : Env} (ops : List Op) (h : allReturn e {} ops = true) :
    Reachable e (Conn.history e ops) := .foldl ops .new h

end Spec

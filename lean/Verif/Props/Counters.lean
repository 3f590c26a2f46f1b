/-
C85: the data counters of a connection.
-/
import Verif.Spec.Counters
import Verif.Lemmas.ConnOps
import Verif.Props.Connect

namespace Props

open Model Spec

/-- Both counters are as they were. -/
def CountersKept (s s' : Conn) : Prop :=
  s'.requestDataCounter = s.requestDataCounter ∧ s'.responseDataCounter = s.responseDataCounter

theorem requestData_counters (e : Env) (c : PData) (s : Conn) (hs : s.requestDataCounter < 2 ^ 64) :
    (requestData e c s).2.requestDataCounter =
      (if Over s.req then s.requestDataCounter else (s.requestDataCounter + c.len) % 2 ^ 64) ∧
    (requestData e c s).2.responseDataCounter = s.responseDataCounter := by
  rw [requestData_eq]
  split
  next h => exact ⟨by rw [if_pos (.inl h)], rfl⟩
  rename_i h1
  split
  next h => exact ⟨by rw [if_pos (.inr h)], rfl⟩
  rename_i h2
  have hn : ¬ Over s.req := fun h => h.elim h1 h2
  rw [if_neg hn]
  split
  next h =>
    have hl : c.len = 0 := by simpa [PData.isEmpty] using h.1
    refine ⟨?_, rfl⟩
    rw [hl, Nat.add_zero, Nat.mod_eq_of_lt hs]
  split
  · exact ⟨rfl, rfl⟩
  · have hf := requestProcess_frame e
      { s with
          req := { s.req with bytesConsumed := 0 }, input := c
          requestChunkCount := s.requestChunkCount + 1
          requestDataCounter := wrapAdd s.requestDataCounter c.len }
    exact ⟨hf.counter, hf.counter'⟩

theorem responseData_counters (e : Env) (c : PData) (s : Conn) (hs : s.responseDataCounter < 2 ^ 64) :
    (responseData e c s).2.responseDataCounter =
      (if Over s.resp then s.responseDataCounter else (s.responseDataCounter + c.len) % 2 ^ 64) ∧
    (responseData e c s).2.requestDataCounter = s.requestDataCounter := by
  rw [responseData_eq]
  split
  next h => exact ⟨by rw [if_pos (.inl h)], rfl⟩
  rename_i h1
  split
  next h => exact ⟨by rw [if_pos (.inr h)], rfl⟩
  rename_i h2
  have hn : ¬ Over s.resp := fun h => h.elim h1 h2
  rw [if_neg hn]
  split
  next h =>
    have hl : c.len = 0 := by simpa [PData.isEmpty] using h.1
    refine ⟨?_, rfl⟩
    rw [hl, Nat.add_zero, Nat.mod_eq_of_lt hs]
  split
  · exact ⟨rfl, rfl⟩
  · have hf := responseProcess_frame e
      { s with
          resp := { s.resp with bytesConsumed := 0 }, input := c
          responseDataCounter := wrapAdd s.responseDataCounter c.len }
    exact ⟨hf.counter', hf.counter⟩

theorem requestData_empty (e : Env) (s : Conn) (hs : s.requestDataCounter < 2 ^ 64) : CountersKept s (requestData e {} s).2 := by
  obtain ⟨h1, h2⟩ := requestData_counters e {} s hs
  refine ⟨?_, h2⟩
  rw [h1]
  split
  · rfl
  · exact Nat.mod_eq_of_lt hs

theorem responseData_empty (e : Env) (s : Conn) (hs : s.responseDataCounter < 2 ^ 64) : CountersKept s (responseData e {} s).2 := by
  obtain ⟨h1, h2⟩ := responseData_counters e {} s hs
  refine ⟨h2, ?_⟩
  rw [h1]
  split
  · rfl
  · exact Nat.mod_eq_of_lt hs

/-- Both counters are as they were, if they were machine words. -/
def CountersHeld (s s' : Conn) : Prop :=
  s.requestDataCounter < 2 ^ 64 ∧ s.responseDataCounter < 2 ^ 64 → CountersKept s s'

theorem CountersHeld.pre : Pre CountersHeld where
  refl _ := fun _ => ⟨rfl, rfl⟩
  trans h h' := fun k => by
    have h1 := h k
    have h2 := h' ⟨by rw [h1.1]; exact k.1, by rw [h1.2]; exact k.2⟩
    exact ⟨h2.1.trans h1.1, h2.2.trans h1.2⟩

theorem Rel.countersHeld {α : Type} {m : M α} (h : Rel Same m) : Rel CountersHeld m := fun s => by
  obtain ⟨_, _, h⟩ := h s
  intro _
  unfold CountersKept
  rw [h]
  exact ⟨rfl, rfl⟩

local macro_rules | `(tactic| rel_pre) => `(tactic| exact CountersHeld.pre)
local macro_rules | `(tactic| rel_known) => `(tactic| (refine Rel.countersHeld ?_; rel_known))

theorem flushOne_counters (e : Env) (i : Nat) : Rel CountersHeld (flushOne e i) := by
  unfold flushOne
  rel_walk
  exact fun _ => ⟨rfl, rfl⟩

local macro_rules | `(tactic| rel_known) => `(tactic| exact flushOne_counters _ _)

theorem flushAll_counters (e : Env) (l : List Nat) : Rel CountersHeld (flushAll e l) := by
  induction l with
  | nil => exact Rel.pure CountersHeld.pre
  | cons i l ih =>
    unfold flushAll
    rel_walk

local macro_rules | `(tactic| rel_known) => `(tactic| exact flushAll_counters _ _)

theorem closeConn_counters (e : Env) : Rel CountersHeld (closeConn e) := by
  unfold closeConn
  rel_walk
  · exact fun _ => ⟨rfl, rfl⟩
  · exact fun s k => requestData_empty e s k.1
  · exact fun s k => responseData_empty e s k.2

/-- C85, one call: the length of a chunk, data or a gap, is added to the counter of its side, modulo 2^64, unless that
stream is over; no other operation changes a counter. -/
theorem C85_call (e : Env) (op : Op) (s : Conn) (hq : s.requestDataCounter < 2 ^ 64) (hp : s.responseDataCounter < 2 ^ 64) :
    (op.after e s).requestDataCounter =
      (if Over s.req then s.requestDataCounter else (s.requestDataCounter + requestBytes [op]) % 2 ^ 64) ∧
    (op.after e s).responseDataCounter =
      (if Over s.resp then s.responseDataCounter else (s.responseDataCounter + responseBytes [op]) % 2 ^ 64) := by
  have hkept : CountersKept s (op.after e s) → requestBytes [op] = 0 → responseBytes [op] = 0 → _ := fun h h1 h2 => by
    show (op.after e s).requestDataCounter = (if Over s.req then s.requestDataCounter else (s.requestDataCounter + requestBytes [op]) % 2 ^ 64) ∧
      (op.after e s).responseDataCounter = (if Over s.resp then s.responseDataCounter else (s.responseDataCounter + responseBytes [op]) % 2 ^ 64)
    rw [h.1, h.2, h1, h2, Nat.add_zero, Nat.add_zero, Nat.mod_eq_of_lt hq, Nat.mod_eq_of_lt hp]
    constructor <;> split <;> rfl
  cases op with
  | request c =>
    obtain ⟨h1, h2⟩ := requestData_counters e c.toPData s hq
    refine ⟨?_, ?_⟩
    · rw [show requestBytes [.request c] = c.toPData.len from (toPData_len c).symm]
      exact h1
    · rw [show responseBytes [.request c] = 0 from rfl, Nat.add_zero, Nat.mod_eq_of_lt hp, ite_self]
      exact h2
  | response c =>
    obtain ⟨h1, h2⟩ := responseData_counters e c.toPData s hp
    refine ⟨?_, ?_⟩
    · rw [show requestBytes [.response c] = 0 from rfl, Nat.add_zero, Nat.mod_eq_of_lt hq, ite_self]
      exact h2
    · rw [show responseBytes [.response c] = c.toPData.len from (toPData_len c).symm]
      exact h1
  | «open» =>
    refine hkept ?_ rfl rfl
    show CountersKept s (if _ then _ else _)
    split <;> exact ⟨rfl, rfl⟩
  | requestClose =>
    exact hkept (requestData_empty e { s with req := s.req.markClosed } hq) rfl rfl
  | close =>
    refine hkept ?_ rfl rfl
    have h : Rel CountersHeld (do let _ ← closeConn e; pure none : M (Option StreamState)) := by
      have := closeConn_counters e
      rel_walk
    exact h s ⟨hq, hp⟩
  | removeTx i => exact hkept ⟨rfl, rfl⟩ rfl rfl
  | askRequest => exact hkept ⟨rfl, rfl⟩ rfl rfl
  | askResponse => exact hkept ⟨rfl, rfl⟩ rfl rfl

/-- C85: after any history the counters are the numbers of bytes given to the two sides, modulo 2^64, as long as the stream
of that side was not over. -/
theorem C85_history_partial (e : Env) (ops : List Op) : ∀ (s : Conn), s.requestDataCounter < 2 ^ 64 → s.responseDataCounter < 2 ^ 64 →
    (NeverOver e (·.req) ops s →
      (ops.foldl (Op.after e) s).requestDataCounter = (s.requestDataCounter + requestBytes ops) % 2 ^ 64) ∧
    (NeverOver e (·.resp) ops s →
      (ops.foldl (Op.after e) s).responseDataCounter = (s.responseDataCounter + responseBytes ops) % 2 ^ 64) := by
  induction ops with
  | nil =>
    intro s hq hp
    exact ⟨fun _ => (Nat.mod_eq_of_lt hq).symm, fun _ => (Nat.mod_eq_of_lt hp).symm⟩
  | cons op ops ih =>
    intro s hq hp
    obtain ⟨h1, h2⟩ := C85_call e op s hq hp
    have hlt : ∀ n x : Nat, n < 2 ^ 64 → (if Over s.req then n else (n + x) % 2 ^ 64) < 2 ^ 64 := fun n x hn => by
      split
      · exact hn
      · exact Nat.mod_lt _ (by decide)
    have hlt' : ∀ n x : Nat, n < 2 ^ 64 → (if Over s.resp then n else (n + x) % 2 ^ 64) < 2 ^ 64 := fun n x hn => by
      split
      · exact hn
      · exact Nat.mod_lt _ (by decide)
    have hbq : requestBytes (op :: ops) = requestBytes [op] + requestBytes ops := by cases op <;> simp [requestBytes]
    have hbp : responseBytes (op :: ops) = responseBytes [op] + responseBytes ops := by cases op <;> simp [responseBytes]
    obtain ⟨i1, i2⟩ := ih (op.after e s) (by rw [h1]; exact hlt _ _ hq) (by rw [h2]; exact hlt' _ _ hp)
    refine ⟨fun hn => ?_, fun hn => ?_⟩
    · rw [List.foldl_cons, i1 hn.2, h1, if_neg hn.1, hbq]
      omega
    · rw [List.foldl_cons, i2 hn.2, h2, if_neg hn.1, hbp]
      omega

/-- Case for C85_history_partial: a request in two calls, a response, and a gap in its body. -/
def countedOps : List Op :=
  [.«open», .request (.data (b! "GET / HTTP/1.1\r\n")), .request (.data (b! "\r\n")),
    .response (.data (b! "HTTP/1.1 200 OK\r\nContent-Length: 9\r\n\r\nabc")), .response (.gap 5), .close]

set_option maxRecDepth 8000 in
theorem countedOps_facts : NeverOver sampleEnv (·.req) countedOps {} ∧ NeverOver sampleEnv (·.resp) countedOps {} ∧
    requestBytes countedOps = 18 ∧ responseBytes countedOps = 46 := by
  decide_cbv

example : (countedOps.foldl (Op.after sampleEnv) {}).requestDataCounter = 18 ∧
    (countedOps.foldl (Op.after sampleEnv) {}).responseDataCounter = 46 := by
  obtain ⟨h1, h2, h3, h4⟩ := countedOps_facts
  obtain ⟨k1, k2⟩ := C85_history_partial sampleEnv countedOps {} (by decide) (by decide)
  exact ⟨(k1 h1).trans (by rw [h3]; rfl), (k2 h2).trans (by rw [h4]; rfl)⟩

/-- The full statement: the counter of the request side is the number of bytes that side consumed. -/
def C85_full : Prop := ∀ (e : Env) (ops : List Op), NeverOver e (·.req) ops {} →
  (Conn.history e ops).requestDataCounter = requestConsumed e ops {} % 2 ^ 64

/-- The case of a request to CONNECT with data that is not consumed, given again in the next call. -/
def connectTwice : List Op := [.request (.data (connectRequest.render ++ b! "SSH-")), .request (.data (b! "SSH-"))]

set_option maxRecDepth 8000 in
theorem connectTwice_counted : NeverOver sampleEnv (·.req) connectTwice {} ∧
    ((Conn.history sampleEnv connectTwice).requestDataCounter == requestConsumed sampleEnv connectTwice {} % 2 ^ 64) = false := by
  decide_cbv

/-- Data that is handed back, and given again, is counted again: it is false. -/
theorem C85_full_false : ¬ C85_full := fun h => by
  have k := h sampleEnv connectTwice connectTwice_counted.1
  have k' := connectTwice_counted.2
  rw [k] at k'
  simp at k'

end Props

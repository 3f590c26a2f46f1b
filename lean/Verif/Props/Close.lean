/- C63: what closing a connection reports. -/
import Verif.Lemmas.OrderOps
import Verif.Lemmas.StoreOps

namespace Spec
open Model

/-- A request or a response of the transaction has begun, and not both are complete. -/
def unfinished (t : Tx) : Bool :=
  (t.requestProgress != .notStarted || t.responseProgress != .notStarted) &&
    (t.requestProgress != .complete || t.responseProgress != .complete)

/-- The unfinished transactions, by increasing index. -/
def unfinishedIndexes (s : Conn) : List Nat := (s.txs.map.filter fun p => unfinished p.2).map (·.1)

/-- Both streams are closed and get their last call. -/
def withStreamsClosed (e : Env) (s : Conn) : Conn :=
  (responseData e {} (requestData e {} { s with req := s.req.markClosed, resp := s.resp.markClosed }).2).2

end Spec

namespace Model
open M Spec

theorem unfinished_eq (t : Tx) : (t.isStarted && !t.isComplete) = unfinished t := by
  simp only [Tx.isStarted, Tx.isComplete, unfinished, Bool.not_and, bne]

/-- Both parts of a computation that succeeds succeed. -/
theorem bind_inv {α β : Type} {m : M α} {f : α → M β} {s s' : Conn} {b : β} (h : (m >>= f) s = (.ok b, s')) :
    ∃ a s1, m s = (.ok a, s1) ∧ f a s1 = (.ok b, s') := by
  rcases hm : m s with ⟨_ | a, s1⟩
  · rw [M.bind_error hm] at h; cases h
  · rw [M.bind_ok hm] at h; exact ⟨a, s1, rfl, h⟩

/-- Transactions are reported and, if wanted, removed. -/
theorem flushAll_eq (e : Env) : ∀ (is : List Nat) (s : Conn), (∀ i ∈ is, (s.txs.get i).isSome) → is.Nodup →
    flushAll e is s = (.ok (), { s with
      trace := s.trace ++ is.map (.tx .transactionComplete)
      txs := if e.cfg.txAutoDestroy then { s.txs with map := s.txs.map.filter (fun p => !is.contains p.1) } else s.txs }) := by
  intro is
  induction is with
  | nil =>
    intro s _ _
    show (Except.ok (), s) = _
    have : s.txs.map.filter (fun p => !([] : List Nat).contains p.1) = s.txs.map := List.filter_eq_self.2 fun _ _ => rfl
    rw [this]
    simp
  | cons i is ih =>
    intro s hg hn
    obtain ⟨hni, hn⟩ := List.nodup_cons.1 hn
    have h1 : attempt (runTxHook e .transactionComplete i) s =
        (.ok (match e.hook s.trace (.tx .transactionComplete i) with | .ok _ => .ok () | .error st => .error st),
          { s with trace := s.trace ++ [.tx .transactionComplete i] }) := by
      have h0 : runTxHook e .transactionComplete i s = emit e (.tx .transactionComplete i) s := by
        show M.when (s.txs.get i).isSome (emit e (.tx .transactionComplete i)) s = _
        rw [hg i (by simp)]; rfl
      unfold attempt
      rw [h0]
      unfold emit
      cases e.hook s.trace (.tx .transactionComplete i) <;> rfl
    have h2 : flushOne e i s = (.ok (), { s with
        trace := s.trace ++ [.tx .transactionComplete i]
        txs := if e.cfg.txAutoDestroy then s.txs.remove i else s.txs }) := by
      unfold flushOne
      rw [M.bind_ok h1]
      cases e.cfg.txAutoDestroy <;> rfl
    unfold flushAll
    rw [M.bind_ok h2]
    refine (ih _ ?_ hn).trans ?_
    · intro j hj
      have hne : j ≠ i := fun h => hni (h ▸ hj)
      have := hg j (by simp [hj])
      show (Txs.get (if _ then _ else _) j).isSome
      split
      · rw [Txs.get_remove, if_neg hne]; exact this
      · exact this
    · cases e.cfg.txAutoDestroy
      · simp
      · simp only [if_true, Txs.remove, Txs.erase, List.filter_filter, List.append_assoc, List.map_cons, List.singleton_append]
        congr 4
        funext p
        by_cases h : p.1 = i
        · simp [h]
        · simp [h]

theorem Txs.get_of_mem {s : Txs} (hs : Txs.Sorted s.map) {p : Nat × Tx} (hp : p ∈ s.map) : s.get p.1 = some p.2 := by
  unfold Txs.get
  obtain ⟨_, _, m⟩ := s
  dsimp only at *
  induction m with
  | nil => cases hp
  | cons q m ih =>
    rw [show q :: m = (q.1, q.2) :: m from rfl, Txs.lookup_cons]
    have h1 : ∀ x ∈ m, q.1 < x.1 := fun x hx => (List.pairwise_cons.1 hs).1 _ (List.mem_map_of_mem hx)
    rcases List.mem_cons.1 hp with rfl | h
    · rw [if_pos rfl]
    · have := h1 p h
      rw [if_neg (by omega)]
      exact ih (List.pairwise_cons.1 hs).2 h

theorem incomplete_eq {s : Conn} (hi : ∀ i t, s.txs.get i = some t → t.index = i) (hs : Txs.Sorted s.txs.map) :
    s.txs.incomplete = unfinishedIndexes s := by
  unfold Txs.incomplete unfinishedIndexes
  simp only [unfinished_eq]
  refine List.map_congr_left fun p hp => ?_
  have hm := (List.mem_filter.1 hp).1
  exact hi p.1 p.2 (Txs.get_of_mem hs hm)

theorem keys_nodup {m : List (Nat × Tx)} (hs : Txs.Sorted m) : (m.map (·.1)).Nodup :=
  List.Pairwise.imp (fun h => Nat.ne_of_lt h) hs

theorem unfinishedIndexes_nodup {s : Conn} (hs : Txs.Sorted s.txs.map) : (unfinishedIndexes s).Nodup :=
  (keys_nodup hs).sublist (List.filter_sublist.map _)

theorem mem_unfinishedIndexes {s : Conn} (hs : Txs.Sorted s.txs.map) {p : Nat × Tx} (hp : p ∈ s.txs.map) :
    (unfinishedIndexes s).contains p.1 = unfinished p.2 := by
  rw [Bool.eq_iff_iff, List.contains_iff_mem]
  constructor
  · intro h
    obtain ⟨q, hq, he⟩ := List.mem_map.1 h
    obtain ⟨hq, hu⟩ := List.mem_filter.1 hq
    have h1 := Txs.get_of_mem hs hp
    have h2 := Txs.get_of_mem hs hq
    rw [he, h1] at h2
    rw [Option.some.inj h2]
    exact hu
  · exact fun h => List.mem_map.2 ⟨p, List.mem_filter.2 ⟨hp, h⟩, rfl⟩

/-- Reporting the unfinished transactions of a state. -/
theorem flush_unfinished (e : Env) {s : Conn} (hi : ∀ i t, s.txs.get i = some t → t.index = i)
    (hs : Txs.Sorted s.txs.map) : flushAll e s.txs.incomplete s = (.ok (), { s with
      trace := s.trace ++ (unfinishedIndexes s).map (.tx .transactionComplete)
      txs := if e.cfg.txAutoDestroy then { s.txs with map := s.txs.map.filter (fun p => !unfinished p.2) } else s.txs }) := by
  rw [incomplete_eq hi hs, flushAll_eq e _ s ?_ (unfinishedIndexes_nodup hs)]
  · have : s.txs.map.filter (fun p => !(unfinishedIndexes s).contains p.1) = s.txs.map.filter (fun p => !unfinished p.2) :=
      List.filter_congr fun p hp => by rw [mem_unfinishedIndexes hs hp]
    rw [this]
  · intro i hi
    obtain ⟨q, hq, rfl⟩ := List.mem_map.1 hi
    rw [Txs.get_of_mem hs (List.mem_filter.1 hq).1]; rfl

end Model

namespace Props
open Model Spec

/-- C63: `close` first closes both streams (`withStreamsClosed`). If unfinished transactions are to be reported, the callback
for the end of a transaction is then run for each transaction that has begun and is not complete: once, in the order of
the indexes, whatever those callbacks answer, and for no other transaction. With automatic removal exactly these
transactions are removed. Nothing else happens. -/
theorem C63_close {e : Env} {s final : Conn} {r : Option StreamState} (hs : Reachable e s)
    (h : Op.close.run e s = (.ok r, final)) :
    let closed := withStreamsClosed e s
    final = if e.cfg.flushIncomplete then { closed with
        trace := closed.trace ++ (unfinishedIndexes closed).map (.tx .transactionComplete)
        txs := if e.cfg.txAutoDestroy then { closed.txs with map := closed.txs.map.filter (fun p => !unfinished p.2) }
          else closed.txs }
      else closed := by
  intro closed
  have hb : Bounded e.cfg.maxTx closed :=
    responseData_store rfl _ _ (requestData_store rfl _ _ ((reachable_bounded hs).same rfl))
  have hi : RespSide closed := responseData_side e {} _ (requestData_side e {} _
    ((reachable_side hs).status s.req.markClosed.status s.resp.markClosed.status))
  obtain ⟨x, s', hc, hr⟩ := bind_inv (show (closeConn e >>= fun _ => (Pure.pure none : M (Option StreamState))) s = _ from h)
  have hr : ((Except.ok none, s') : Except Err (Option StreamState) × Conn) = (.ok r, final) := hr
  injection hr with _ hr
  subst hr
  unfold closeConn at hc
  obtain ⟨_, s0, h0, c0⟩ := bind_inv hc
  obtain ⟨a, s1, h1, c1⟩ := bind_inv c0
  obtain ⟨b, s2, h2, c2⟩ := bind_inv c1
  obtain ⟨_, _, h3, c3⟩ := bind_inv c2
  obtain ⟨_, s4, h4, c4⟩ := bind_inv c3
  clear hc c0 c1 c2 c3
  cases h0
  cases h3
  cases c4
  have hclosed : closed = s2 := by
    show (responseData e {} (requestData e {} _).2).2 = s2
    rw [h1]
    show (responseData e {} s1).2 = s2
    rw [h2]
  clear_value closed
  subst hclosed
  cases hf : e.cfg.flushIncomplete with
  | false => rw [hf] at h4; cases h4; rfl
  | true =>
    rw [hf, show M.when true (flushAll e closed.txs.incomplete) = flushAll e closed.txs.incomplete from rfl,
      flush_unfinished e hi.1.1 hb.1] at h4
    cases h4
    rfl

/-- Unfinished transactions are reported when the connection is closed. -/
def flushingEnv (destroy : Bool) : Env :=
  { sampleEnv with cfg := { sampleEnv.cfg with flushIncomplete := true, txAutoDestroy := destroy } }

/-- Two requests, the first of which has been answered; the second is cut within its body. -/
def C63_ops : List Op :=
  [.open,
    .request (.data (b! "GET / HTTP/1.1\r\nA: b\r\n\r\n")),
    .response (.data (b! "HTTP/1.1 200 OK\r\nContent-Length: 1\r\n\r\nx")),
    .request (.data (b! "GET / HTTP/1.1\r\nA: b\r\n\r\nPOST / HTTP/1.1\r\nContent-Length: 4\r\n\r\nab"))]

set_option maxRecDepth 4000 in
/-- Case for C63: transaction 0 was complete before, the transactions 1 and 2 are reported. -/
example : allReturn (flushingEnv false) {} (C63_ops ++ [.close]) = true ∧
    unfinishedIndexes (withStreamsClosed (flushingEnv false) (Conn.history (flushingEnv false) C63_ops)) = [1, 2] ∧
    hookRuns .transactionComplete (Conn.history (flushingEnv false) (C63_ops ++ [.close])).trace = [0, 1, 2] ∧
    (Conn.history (flushingEnv false) (C63_ops ++ [.close])).txs.map.map (·.1) = [0, 1, 2] ∧
    (Conn.history (flushingEnv true) (C63_ops ++ [.close])).txs.map = [] := by
  refine ⟨?_, ?_, ?_, ?_, ?_⟩ <;> decide_cbv

set_option maxRecDepth 4000 in
/-- A finding: closing a connection twice reports the unfinished transactions twice, unless they are removed. -/
theorem C63_twice : ∃ s, Reachable (flushingEnv false) s ∧
    hookRuns .transactionComplete s.trace = [0, 1, 2, 1, 2] := by
  refine ⟨Conn.history (flushingEnv false) (C63_ops ++ [.close, .close]), .history _ ?_, ?_⟩ <;> decide_cbv

end Props

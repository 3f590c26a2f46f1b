/-
C84: a C program reads the log.
-/
import Verif.Spec.CLog
import Verif.Props.Log

namespace Props

open Model Spec

theorem alloc_at (m : CMem) (c : Cell) : (m.alloc c).2.at? m.next = some c := by simp [CMem.alloc, CMem.at?]

theorem alloc_drop {m : CMem} (h : Sound m) (c : Cell) : ((m.alloc c).2.drop m.next) = { m with next := m.next + 1 } := by
  unfold CMem.alloc CMem.drop
  dsimp only
  congr 1
  rw [List.filter_cons]
  simp only [bne_self_eq_false, Bool.false_eq_true, if_false]
  rw [List.filter_eq_self]
  intro x hx
  have := h x hx
  simp
  omega

theorem cStr_text {t : Bytes} (h : 0 ∉ t) : cStr (some (t ++ [0])) = .ok t := by
  show (if 0 ∈ t ++ [0] then Except.ok ((t ++ [0]).takeWhile (· != 0)) else .error Fault.bounds) = _
  rw [if_pos (by simp)]
  congr 1
  induction t with
  | nil => rfl
  | cons c t ih =>
    have hc : c ≠ 0 := fun e => h (by simp [e])
    rw [List.cons_append, List.takeWhile_cons, if_pos (by simpa using hc), ih (fun hm => h (by simp [hm]))]

/-- A string is made, read and freed; nothing is left of it but its address. -/
theorem take_new {m : CMem} (h : Sound m) (t : Bytes) :
    ∃ n, m.next ≤ n ∧ takeString (m.newCString t).2 (m.newCString t).1 =
      .ok ((if 0 ∈ t then none else some t), { m with next := n }) := by
  by_cases h0 : 0 ∈ t
  · refine ⟨m.next, Nat.le_refl _, ?_⟩
    rw [if_pos h0]
    unfold CMem.newCString
    rw [if_pos h0]
    rfl
  · refine ⟨m.next + 1, by omega, ?_⟩
    rw [if_neg h0]
    unfold CMem.newCString
    rw [if_neg h0]
    show takeString (m.alloc _).2 (some m.next) = _
    unfold takeString
    simp only [alloc_at, cStr_text h0, CMem.freeCString, alloc_drop h]
    rfl

theorem at_next {m : CMem} {n a : Nat} : ({ m with next := n } : CMem).at? a = m.at? a := rfl

/-- C84: however many messages there are, the program gets all of them, in order, each once, with the code and the texts
as they were logged; it makes no invalid access, all memory it was given is freed, the log is empty, and nothing else in
its memory has changed. -/
theorem C84_read_log (fuel : Nat) : ∀ (m : CMem), Sound m → m.queue.length < fuel →
    ∃ n, m.next ≤ n ∧ readLog fuel m = .ok (m.queue.map entryOf, { next := n, cells := m.cells, queue := [] }) := by
  induction fuel with
  | zero => intro m _ h; exact absurd h (Nat.not_lt_zero _)
  | succ fuel ih =>
    intro m hs hl
    obtain ⟨next, cells, queue⟩ := m
    cases queue with
    | nil => exact ⟨next, Nat.le_refl _, rfl⟩
    | cons l q =>
      have hs0 : Sound { next := next, cells := cells, queue := q } := hs
      generalize hm0 : ({ next := next, cells := cells, queue := q } : CMem) = m0 at hs0
      have hn : m0.next = next := by rw [← hm0]
      have hstep : CMem.connNextLog { next := next, cells := cells, queue := l :: q } true = m0.alloc (.log l) := by rw [← hm0]; rfl
      generalize hm1 : (m0.alloc (.log l)).2 = m1
      have hs1 : Sound m1 := by
        rw [← hm1]
        intro x hx
        rcases List.mem_cons.mp hx with rfl | hx
        · exact Nat.lt_succ_self _
        · exact Nat.lt_succ_of_lt (hs0 x hx)
      have ha : m1.at? m0.next = some (.log l) := by rw [← hm1]; exact alloc_at _ _
      have hn1 : m1.next = m0.next + 1 := by rw [← hm1]; rfl
      obtain ⟨n2, h2, t2⟩ := take_new hs1 l.payload.msg
      have hs2 : Sound { m1 with next := n2 } := fun x hx => Nat.lt_of_lt_of_le (hs1 x hx) h2
      obtain ⟨n3, h3, t3⟩ := take_new hs2 l.payload.file
      have hd : ({ m1 with next := n3 } : CMem).drop m0.next = { m0 with next := n3 } := by
        have h4 := alloc_drop hs0 (.log l)
        rw [hm1] at h4
        have h5 : ({ m1 with next := n3 } : CMem).drop m0.next = { m1.drop m0.next with next := n3 } := rfl
        rw [h5, h4]
      have hs3 : Sound { m0 with next := n3 } := fun x hx => by
        have := hs0 x hx
        have h2' : m1.next ≤ n2 := h2
        have h3' : n2 ≤ n3 := h3
        show x.1 < n3
        omega
      obtain ⟨n4, h4, t4⟩ := ih { m0 with next := n3 } hs3 (by
        rw [← hm0]
        simp only [List.length_cons] at hl
        show q.length < fuel
        omega)
      refine ⟨n4, ?_, ?_⟩
      · have h2' : m1.next ≤ n2 := h2
        have h3' : n2 ≤ n3 := h3
        have h4' : n3 ≤ n4 := h4
        show next ≤ n4
        omega
      · have hc : m1.logCode (some m0.next) = .ok l.payload.code := by
          unfold CMem.logCode CMem.logAt
          simp only [ha]
          rfl
        have hg : m1.logMessage (some m0.next) = .ok (m1.newCString l.payload.msg) := by
          unfold CMem.logMessage CMem.logAt
          simp only [ha]
          rfl
        have hf : ({ m1 with next := n2 } : CMem).logFile (some m0.next) =
            .ok (({ m1 with next := n2 } : CMem).newCString l.payload.file) := by
          unfold CMem.logFile CMem.logAt
          simp only [at_next, ha]
          rfl
        have hr : ({ m1 with next := n3 } : CMem).logFree (some m0.next) = .ok { m0 with next := n3 } := by
          unfold CMem.logFree
          simp only [at_next, ha, hd]
        unfold readLog
        rw [hstep]
        show (do
          let code ← (m0.alloc (.log l)).2.logCode (some m0.next)
          let (p, m) ← (m0.alloc (.log l)).2.logMessage (some m0.next)
          let (msg, m) ← takeString m p
          let (p, m) ← m.logFile (some m0.next)
          let (file, m) ← takeString m p
          let m ← m.logFree (some m0.next)
          let (entries, m) ← readLog fuel m
          return ((code, msg, file) :: entries, m) : Except Fault (List LogEntry × CMem)) = _
        rw [hm1, hc]
        show (do
          let (p, m) ← m1.logMessage (some m0.next)
          let (msg, m) ← takeString m p
          let (p, m) ← m.logFile (some m0.next)
          let (file, m) ← takeString m p
          let m ← m.logFree (some m0.next)
          let (entries, m) ← readLog fuel m
          return ((l.payload.code, msg, file) :: entries, m) : Except Fault (List LogEntry × CMem)) = _
        rw [hg]
        show (do
          let (msg, m) ← takeString (m1.newCString l.payload.msg).2 (m1.newCString l.payload.msg).1
          let (p, m) ← m.logFile (some m0.next)
          let (file, m) ← takeString m p
          let m ← m.logFree (some m0.next)
          let (entries, m) ← readLog fuel m
          return ((l.payload.code, msg, file) :: entries, m) : Except Fault (List LogEntry × CMem)) = _
        rw [t2]
        show (do
          let (p, m) ← ({ m1 with next := n2 } : CMem).logFile (some m0.next)
          let (file, m) ← takeString m p
          let m ← m.logFree (some m0.next)
          let (entries, m) ← readLog fuel m
          return ((l.payload.code, _, file) :: entries, m) : Except Fault (List LogEntry × CMem)) = _
        rw [hf]
        show (do
          let (file, m) ← takeString (({ m1 with next := n2 } : CMem).newCString l.payload.file).2
            (({ m1 with next := n2 } : CMem).newCString l.payload.file).1
          let m ← m.logFree (some m0.next)
          let (entries, m) ← readLog fuel m
          return ((l.payload.code, _, file) :: entries, m) : Except Fault (List LogEntry × CMem)) = _
        rw [t3]
        show (do
          let m ← ({ m1 with next := n3 } : CMem).logFree (some m0.next)
          let (entries, m) ← readLog fuel m
          return ((l.payload.code, _, _) :: entries, m) : Except Fault (List LogEntry × CMem)) = _
        rw [hr]
        show (do
          let (entries, m) ← readLog fuel { m0 with next := n3 }
          return ((l.payload.code, _, _) :: entries, m) : Except Fault (List LogEntry × CMem)) = _
        rw [t4, ← hm0]
        rfl

/-- C84, after any history of logging and reading: what was read before and what the program reads are together all the
messages that were wanted (C27), in their order. -/
theorem C84_nothing_lost (ops : List (LogOp LogText)) (ms : List (Message LogText)) (h : Wanted ops ms) (m : CMem) (hs : Sound m)
    (hq : m.queue = (runLog ops []).2) :
    ∃ n, m.next ≤ n ∧ readLog (m.queue.length + 1) m =
      .ok ((ms.drop (runLog ops []).1.length).map entryOf, { next := n, cells := m.cells, queue := [] }) := by
  have h1 := C27_history ops ms h []
  rw [List.nil_append] at h1
  obtain ⟨n, hn, h2⟩ := C84_read_log (m.queue.length + 1) m hs (by omega)
  refine ⟨n, hn, ?_⟩
  rw [h2, ← h1, List.drop_left, hq]

/-- C84: NULL is accepted by every function, and answered with NULL, with the code that stands for an error, or not at all. -/
theorem C84_null (m : CMem) : m.connNextLog false = (none, m) ∧ m.logMessage none = .ok (none, m) ∧ m.logFile none = .ok (none, m) ∧
    m.logCode none = .ok logCodeError ∧ m.logFree none = .ok m ∧ m.freeCString none = .ok m :=
  ⟨rfl, rfl, rfl, rfl, rfl, rfl⟩

/-- Cases: two messages, one with a NUL in its text, in a program that has a string of its own. -/
example : let m : CMem := { next := 5, cells := [(3, .text [104, 105, 0])], queue := [⟨.error, ⟨24, b! "too long", b! "a.rs", 7⟩⟩, ⟨.warning, ⟨3, [97, 0, 98], b! "b.rs", 9⟩⟩] }
    Sound m ∧ readLog 3 m = .ok ([(24, some (b! "too long"), some (b! "a.rs")), (3, none, some (b! "b.rs"))],
      { next := 10, cells := [(3, .text [104, 105, 0])], queue := [] }) := by
  exact ⟨by unfold Sound; decide, rfl⟩

/-- Case for C84_nothing_lost: a warning, a debug message that is not wanted, and an error after the first is taken. -/
def logged (code : Nat) : LogText := ⟨code, b! "text", b! "a.rs", 7⟩
example : Wanted [.log .notice .warning (logged 1), .log .notice .debug (logged 2), .next, .log .notice .error (logged 3)]
    [⟨.warning, logged 1⟩, ⟨.error, logged 3⟩] :=
  .keep ((atMost_iff _ _).2 (by decide)) (.skip (fun h => absurd ((atMost_iff _ _).1 h) (by decide))
    (.next (.keep ((atMost_iff _ _).2 (by decide)) .nil)))

end Props

/-
C27: log filtering and delivery order.
-/
import Verif.Model.Log

open Model

namespace Props

variable {μ : Type}

/-- What a program can do with the log of a connection: log a message through a logger of some level
(every component has its own logger), take one message, or drain. -/
inductive LogOp (μ : Type) where
  | log (configured level : LogLevel) (payload : μ)
  | next
  | drain

/-- Executes a history of operations: the messages handed out, in order, and the remaining channel. -/
def runLog : List (LogOp μ) → Channel μ → List (Message μ) × Channel μ
  | [], q => ([], q)
  | .log c l p :: ops, q => runLog ops (q.log c l p)
  | .next :: ops, q =>
    let (m, q) := q.getNextLog
    let (out, q) := runLog ops q
    (m.toList ++ out, q)
  | .drain :: ops, q =>
    let (ms, q) := q.getLogs
    let (out, q) := runLog ops q
    (ms ++ out, q)

/-- The levels from the most to the least severe. -/
def severity : List LogLevel := [.none, .error, .warning, .notice, .info, .debug, .debug2]

/-- `a` is listed no later than `b` in `severity`. -/
def AtMost (a b : LogLevel) : Prop := ∃ i j : Nat, i ≤ j ∧ severity[i]? = some a ∧ severity[j]? = some b

/-- The messages of a history that pass their logger's level, in order. -/
inductive Wanted : List (LogOp μ) → List (Message μ) → Prop
  | nil : Wanted [] []
  | keep {c l p ops ms} : AtMost l c → Wanted ops ms → Wanted (.log c l p :: ops) (⟨l, p⟩ :: ms)
  | skip {c l p ops ms} : ¬ AtMost l c → Wanted ops ms → Wanted (.log c l p :: ops) ms
  | next {ops ms} : Wanted ops ms → Wanted (.next :: ops) ms
  | drain {ops ms} : Wanted ops ms → Wanted (.drain :: ops) ms

theorem rank_getElem (a : LogLevel) : severity[a.rank]? = some a := by cases a <;> rfl

theorem severity_rank (i : Nat) (a : LogLevel) (h : severity[i]? = some a) : i = a.rank := by
  have hi : i < 7 := by
    by_cases hi : i < 7
    · exact hi
    · have : severity.length ≤ i := by simp [severity]; omega
      rw [List.getElem?_eq_none this] at h; cases h
  match i, hi with
  | 0, _ | 1, _ | 2, _ | 3, _ | 4, _ | 5, _ | 6, _ => cases h; rfl

theorem atMost_iff (a b : LogLevel) : AtMost a b ↔ a.rank ≤ b.rank := by
  constructor
  · rintro ⟨i, j, hij, hi, hj⟩
    rw [← severity_rank i a hi, ← severity_rank j b hj]; exact hij
  · intro h; exact ⟨a.rank, b.rank, h, rank_getElem a, rank_getElem b⟩

theorem getLogsLoop_eq : ∀ (n : Nat) (q acc : List (Message μ)), q.length ≤ n →
    Channel.getLogsLoop n q acc = (acc ++ q, [])
  | 0, q, acc, h => by
    have : q = [] := List.length_eq_zero_iff.mp (Nat.le_zero.mp h)
    subst this; simp [Channel.getLogsLoop]
  | n + 1, [], acc, _ => by simp [Channel.getLogsLoop, Channel.tryRecv]
  | n + 1, m :: q, acc, h => by
    simp only [Channel.getLogsLoop, Channel.tryRecv]
    rw [getLogsLoop_eq n q (acc ++ [m]) (by simpa using h)]
    simp

theorem getLogs_eq (q : Channel μ) : q.getLogs = (q, []) := by
  rw [Channel.getLogs, getLogsLoop_eq _ _ _ (by omega)]; simp

/-- C27: logging delivers the message exactly when its level is at most the logger's level. -/
theorem C27_filter (q : Channel μ) (c l : LogLevel) (p : μ) :
    (AtMost l c → q.log c l p = q ++ [⟨l, p⟩]) ∧ (¬ AtMost l c → q.log c l p = q) := by
  rw [atMost_iff, Channel.log]
  constructor <;> intro h <;> simp [h]

/-- C27: for every history of logging, taking one message and draining, what was handed out followed
by what is still queued is exactly what was queued at first followed by the messages that pass the
filter, in the order they were logged: nothing is lost, repeated or reordered. -/
theorem C27_history (ops : List (LogOp μ)) (ms : List (Message μ)) (h : Wanted ops ms) (q : Channel μ) :
    (runLog ops q).1 ++ (runLog ops q).2 = q ++ ms := by
  induction h generalizing q with
  | nil => simp [runLog]
  | keep h1 _ ih => rw [runLog, (C27_filter _ _ _ _).1 h1, ih]; simp
  | skip h1 _ ih => rw [runLog, (C27_filter _ _ _ _).2 h1, ih]
  | next _ ih =>
    cases q with
    | nil => simpa [runLog, Channel.getNextLog, Channel.tryRecv] using ih []
    | cons m q => simpa [runLog, Channel.getNextLog, Channel.tryRecv] using ih q
  | drain _ ih => simpa [runLog, getLogs_eq] using ih []

/-- C27: the list of wanted messages exists for every history (so `C27_history` always applies). -/
theorem C27_wanted_total (ops : List (LogOp μ)) : ∃ ms, Wanted ops ms := by
  induction ops with
  | nil => exact ⟨[], .nil⟩
  | cons op ops ih =>
    obtain ⟨ms, h⟩ := ih
    cases op with
    | log c l p =>
      by_cases hl : AtMost l c
      · exact ⟨_, .keep hl h⟩
      · exact ⟨_, .skip hl h⟩
    | next => exact ⟨_, .next h⟩
    | drain => exact ⟨_, .drain h⟩

/-- C27: draining hands out everything and leaves the channel empty; taking one message hands out the
oldest, and nothing exactly when the channel is empty. -/
theorem C27_take (q : Channel μ) :
    q.getLogs = (q, []) ∧ (∀ m q', q.getNextLog = (some m, q') ↔ q = m :: q') ∧
    ((q.getNextLog).1 = none ↔ q = []) := by
  refine ⟨getLogs_eq q, ?_, ?_⟩
  · cases q <;> simp [Channel.getNextLog, Channel.tryRecv]
  · cases q <;> simp [Channel.getNextLog, Channel.tryRecv]

/-! A history: with level NOTICE a warning passes and a debug message does not. -/
example : runLog [.log .notice .warning 1, .log .notice .debug 2, .log .notice .error 3, .next,
    .log .debug2 .info 4, .drain, .next] [] =
    ([⟨.warning, 1⟩, ⟨.error, 3⟩, ⟨.info, 4⟩], ([] : Channel Nat)) := by decide

end Props

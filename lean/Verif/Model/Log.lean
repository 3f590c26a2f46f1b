/-
Model of src/log.rs (`Logger`) and of the log channel of src/connection.rs.
-/
import Verif.Basic

namespace Model

/-- src/log.rs:171-186 `enum HtpLogLevel`; the derived order is the order of declaration. -/
inductive LogLevel where
  | none | error | warning | notice | info | debug | debug2
  deriving Repr, DecidableEq

/-- Position in the declaration, which the derived `PartialOrd` compares. -/
def LogLevel.rank : LogLevel → Nat
  | .none => 0 | .error => 1 | .warning => 2 | .notice => 3 | .info => 4 | .debug => 5 | .debug2 => 6

/-- src/log.rs:223-234 `struct Message`; file, line, code and text are the payload `μ`. -/
structure Message (μ : Type) where
  level : LogLevel
  payload : μ
  deriving Repr, DecidableEq

/-- The channel of src/connection.rs:37: the messages sent and not yet received, oldest first.
`std::sync::mpsc::channel` is an unbounded FIFO queue; sending cannot fail while the connection, which
owns the receiver, exists. All clones of the logger share it. -/
abbrev Channel (μ : Type) := List (Message μ)

/-- src/log.rs:206-218 `Logger::log` of a logger with level `configured`. -/
def Channel.log {μ : Type} (q : Channel μ) (configured level : LogLevel) (payload : μ) : Channel μ :=
  if level.rank ≤ configured.rank then q ++ [⟨level, payload⟩] else q

/-- `Receiver::try_recv` (std): the oldest message, if any. -/
def Channel.tryRecv {μ : Type} : Channel μ → Option (Message μ) × Channel μ
  | [] => (.none, [])
  | m :: q => (some m, q)

/-- src/connection.rs:117-122 `get_next_log`. -/
def Channel.getNextLog {μ : Type} (q : Channel μ) : Option (Message μ) × Channel μ := q.tryRecv

/-- src/connection.rs:108-114 `get_logs`: receive until the channel is empty. Fuel: the number of
queued messages (nothing is logged meanwhile). -/
def Channel.getLogsLoop {μ : Type} : Nat → Channel μ → List (Message μ) → List (Message μ) × Channel μ
  | 0, q, logs => (logs, q)
  | fuel + 1, q, logs =>
    match q.tryRecv with
    | (some m, q) => Channel.getLogsLoop fuel q (logs ++ [m])
    | (.none, q) => (logs, q)

def Channel.getLogs {μ : Type} (q : Channel μ) : List (Message μ) × Channel μ :=
  Channel.getLogsLoop (q.length + 1) q []

end Model

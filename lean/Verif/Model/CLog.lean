/-
Model of the log functions of the C interface (src/c_api/log.rs, src/c_api/connection.rs:31-36, src/c_api/mod.rs:32-35),
with the memory they hand out.
-/
import Verif.Model.Log
import Verif.Model.CApi

namespace Model

/-- src/log.rs:221-234 `struct Message`: what there is besides the level. The code is the number of the declaration
(src/log.rs:4-166, `HtpLogCode`); file and text are UTF-8. -/
structure LogText where
  code : Nat
  msg : Bytes
  file : Bytes
  line : Nat
  deriving Repr, DecidableEq

/-- The last code, `HtpLogCode::ERROR` (src/log.rs:164-165). -/
def logCodeError : Nat := 78

/-- What the library has on the heap for C: a `Log` (src/log.rs:255-268; the addresses and ports of the connection are
left out, no function of the C interface reads them), or the bytes of a `CString` with the NUL at the end. -/
inductive Cell where
  | log (m : Message LogText)
  | text (bytes : Bytes)
  deriving Repr, DecidableEq

/-- The memory of a C program and the log channel of its connection. `next` is an address nothing has been at. -/
structure CMem where
  next : Nat
  cells : List (Nat × Cell)
  queue : Channel LogText
  deriving Repr, DecidableEq

namespace CMem

/-- `Box::into_raw(Box::new(..))`, `CString::into_raw`: a fresh address. -/
def alloc (m : CMem) (c : Cell) : Option Nat × CMem :=
  (some m.next, { m with next := m.next + 1, cells := (m.next, c) :: m.cells })

/-- What is at an address. -/
def at? (m : CMem) (a : Nat) : Option Cell := (m.cells.find? (·.1 == a)).map (·.2)

/-- The memory is given back. -/
def drop (m : CMem) (a : Nat) : CMem := { m with cells := m.cells.filter (·.1 != a) }

/-- `log.as_ref()`: NULL is no log; any other pointer has to be one. -/
def logAt (m : CMem) : Option Nat → Except Fault (Option (Message LogText))
  | none => .ok none
  | some a =>
    match m.at? a with
    | some (.log l) => .ok (some l)
    | _ => .error .dangling

/-- `CString::new(text).ok().map(into_raw).unwrap_or(null)`: there is no C string for a text with a NUL in it. -/
def newCString (m : CMem) (text : Bytes) : Option Nat × CMem :=
  if 0 ∈ text then (none, m) else m.alloc (.text (text ++ [0]))

/-- src/c_api/connection.rs:31-36 `htp_conn_next_log`; `conn`: whether the pointer is the connection (and not NULL). -/
def connNextLog (m : CMem) (conn : Bool) : Option Nat × CMem :=
  if conn then
    match m.queue.getNextLog with
    | (some l, q) => { m with queue := q }.alloc (.log l)
    | (none, q) => (none, { m with queue := q })
  else (none, m)

/-- src/c_api/log.rs:12-17 `htp_log_message`. -/
def logMessage (m : CMem) (log : Option Nat) : Except Fault (Option Nat × CMem) := do
  match ← m.logAt log with
  | some l => return m.newCString l.payload.msg
  | none => return (none, m)

/-- src/c_api/log.rs:26-31 `htp_log_file`. -/
def logFile (m : CMem) (log : Option Nat) : Except Fault (Option Nat × CMem) := do
  match ← m.logAt log with
  | some l => return m.newCString l.payload.file
  | none => return (none, m)

/-- src/c_api/log.rs:39-43 `htp_log_code`. -/
def logCode (m : CMem) (log : Option Nat) : Except Fault Nat := do
  return ((← m.logAt log).map (·.payload.code)).getD logCodeError

/-- src/c_api/log.rs:49-53 `htp_log_free`. -/
def logFree (m : CMem) : Option Nat → Except Fault CMem
  | none => .ok m
  | some a =>
    match m.at? a with
    | some (.log _) => .ok (m.drop a)
    | _ => .error .dangling

/-- src/c_api/mod.rs:32-35 `htp_free_cstring`. -/
def freeCString (m : CMem) : Option Nat → Except Fault CMem
  | none => .ok m
  | some a =>
    match m.at? a with
    | some (.text _) => .ok (m.drop a)
    | _ => .error .dangling

end CMem

end Model

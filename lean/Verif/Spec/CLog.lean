/-
A C program that reads the log.
-/
import Verif.Model.CLog

namespace Spec

open Model

/-- What the program gets of one message: the code, and the two texts where it gets a string. -/
abbrev LogEntry := Nat × Option Bytes × Option Bytes

/-- The program reads a string up to its NUL and frees it; NULL gives nothing. -/
def takeString (m : CMem) : Option Nat → Except Fault (Option Bytes × CMem)
  | none => do return (none, ← m.freeCString none)
  | some a => do
    match m.at? a with
    | some (.text bytes) => return (some (← cStr (some bytes)), ← m.freeCString (some a))
    | _ => throw .dangling

/-- `while ((log = htp_conn_next_log(conn)))`: the code, the message and the file are read, the strings and the log are
freed. `fuel` bounds the number of rounds. -/
def readLog : Nat → CMem → Except Fault (List LogEntry × CMem)
  | 0, m => .ok ([], m)
  | fuel + 1, m =>
    match m.connNextLog true with
    | (none, m) => .ok ([], m)
    | (some log, m) => do
      let code ← m.logCode (some log)
      let (p, m) ← m.logMessage (some log)
      let (msg, m) ← takeString m p
      let (p, m) ← m.logFile (some log)
      let (file, m) ← takeString m p
      let m ← m.logFree (some log)
      let (entries, m) ← readLog fuel m
      return ((code, msg, file) :: entries, m)

/-- What the program should get: texts without a NUL as they are. -/
def entryOf (l : Message LogText) : LogEntry :=
  (l.payload.code, (if 0 ∈ l.payload.msg then none else some l.payload.msg), if 0 ∈ l.payload.file then none else some l.payload.file)

/-- Every address in use is one that has been given out. -/
def Sound (m : CMem) : Prop := ∀ x ∈ m.cells, x.1 < m.next

end Spec

/-
Model of `ParserData`, the window on a chunk of connection data (src/connection_parser.rs).
-/
import Verif.Basic

namespace Model

/-- connection_parser.rs:85-94 `struct ParserData`. Borrowed and owned data are not distinguished. -/
structure PData where
  data : Option Bytes := none
  gapLen : Option Nat := none
  position : Nat := 0
  callbackPosition : Nat := 0
deriving DecidableEq, Repr

namespace PData

/-- connection_parser.rs:205-247 `From<&[u8]>`, `From<Vec<u8>>`, ...: data, nothing consumed. -/
def ofBytes (b : Bytes) : PData := { data := some b }

/-- connection_parser.rs:249-258 `From<usize>`: a gap. -/
def ofGap (n : Nat) : PData := { gapLen := some n }

/-- connection_parser.rs:260-272 `From<(*const u8, usize)>`; `none` is the null pointer. -/
def ofPtr (p : Option Bytes) (len : Nat) : PData :=
  match p with
  | none => if len > 0 then ofGap len else ofBytes []
  | some b => ofBytes b

/-- connection_parser.rs:107-114 `data`. -/
def unconsumed (d : PData) : Option Bytes :=
  match d.data with
  | none => none
  | some b => if d.position ≤ b.length then some (b.drop d.position) else none

/-- connection_parser.rs:135-142 `as_slice`. -/
def asSlice (d : PData) : Bytes :=
  match d.data with
  | none => []
  | some b => if d.position ≤ b.length then b.drop d.position else []

/-- connection_parser.rs:117-127 `len`. -/
def len (d : PData) : Nat :=
  match d.gapLen with
  | some g => if d.position ≥ g then 0 else g - d.position
  | none => d.asSlice.length

/-- connection_parser.rs:145-147 `is_gap`. -/
def isGap (d : PData) : Bool := d.gapLen.isSome

/-- connection_parser.rs:150-152 `is_empty`. -/
def isEmpty (d : PData) : Bool := d.len == 0

/-- connection_parser.rs:160-162 `consume`. -/
def consume (d : PData) (n : Nat) : PData := { d with position := d.position + n }

/-- connection_parser.rs:165-171 `unconsume`. -/
def unconsume (d : PData) (n : Nat) : PData :=
  if n < d.position then { d with position := d.position - n } else { d with position := 0 }

/-- connection_parser.rs:188-197 `callback_data`: the data handed out, and the new window. -/
def callbackData (d : PData) : Bytes × PData :=
  match d.data with
  | none => ([], d)
  | some b =>
    if d.position ≤ b.length ∧ d.callbackPosition ≤ d.position then
      ((b.take d.position).drop d.callbackPosition, { d with callbackPosition := d.position })
    else ([], d)

/-- connection_parser.rs:200-202 `reset_callback_start`. -/
def resetCallbackStart (d : PData) : PData := { d with callbackPosition := d.position }

end PData

/-- The calls a parser can make on a window. -/
inductive DataCall where
  | consume (n : Nat)
  | unconsume (n : Nat)
  | callbackData
  | resetCallbackStart
deriving DecidableEq, Repr

/-- Performs one call: the data handed out (for `callback_data`) and the new window. -/
def PData.call (d : PData) : DataCall → Bytes × PData
  | .consume n => ([], d.consume n)
  | .unconsume n => ([], d.unconsume n)
  | .callbackData => d.callbackData
  | .resetCallbackStart => ([], d.resetCallbackStart)

/-- Performs calls one after the other: all the data handed out, in order, and the final window. -/
def PData.calls (d : PData) : List DataCall → Bytes × PData
  | [] => ([], d)
  | c :: cs => ((d.call c).1 ++ ((d.call c).2.calls cs).1, ((d.call c).2.calls cs).2)

end Model

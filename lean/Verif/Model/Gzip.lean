/-
Model of the gzip header parser of src/decompressors.rs:402-606.
-/
import Verif.Model.Util

namespace Model

/-- src/decompressors.rs:403-411 `enum GzState`. -/
inductive GzState where
  | start | xlen | extra | filename | comment | crc | afterHeader
  deriving Repr, DecidableEq

/-- src/decompressors.rs:421-438 `struct GzipBufWriter`, without the decoder inside. `xlen` is a `u16`. -/
structure Gz where
  buffer : Bytes := []
  flags : UInt8 := 0
  xlen : Nat := 0
  state : GzState := .start
  deriving Repr, DecidableEq

/-- What `GzipBufWriter::write` returns: `Ok(n)`, `Err(InvalidInput)`, the result of giving the data to the decoder
inside, or a panic (`data.len() - parse.len()` with the second number larger). -/
inductive GzResult where
  | ok (n : Nat)
  | invalid
  | inner (data : Bytes)
  | panic
  deriving Repr, DecidableEq

namespace Gz

/-- `data.len() - parse.len()`. -/
def consumed (dataLen : Nat) (parse : Bytes) : GzResult :=
  if parse.length ≤ dataLen then .ok (dataLen - parse.length) else .panic

/-- src/decompressors.rs:440-448 `parse_start`: the rest and the flags, `none` for incomplete data, `error` for a wrong
tag. The streaming `tag` of nom fails as soon as one byte differs. -/
def parseStart (d : Bytes) : Except Unit (Option (Bytes × UInt8)) :=
  if d.take 3 = [0x1f, 0x8b, 0x08].take d.length then
    match d.drop 3 with
    | flags :: rest => if 6 ≤ rest.length then .ok (some (rest.drop 6, flags)) else .ok none
    | [] => .ok none
  else .error ()

/-- `le_u16` (streaming). -/
def leU16 : Bytes → Option (Bytes × Nat)
  | a :: b :: rest => some (rest, a.toNat + 256 * b.toNat)
  | _ => none

/-- `tuple((take_until(b"\0"), tag(b"\0")))` (streaming): what follows the first NUL. -/
def afterNul (d : Bytes) : Option Bytes := (splitFirst (· == 0) d).2

/-- src/decompressors.rs:566-585: state `Crc`. -/
def atCrc (g : Gz) (dataLen : Nat) (parse : Bytes) : GzResult × Gz :=
  if g.flags &&& 0x02 ≠ 0 then
    match leU16 parse with
    | some (rest, _) => (consumed dataLen rest, { g with state := .afterHeader })
    | none => (consumed dataLen parse, { g with state := .crc })
  else (consumed dataLen parse, { g with state := .afterHeader })

/-- src/decompressors.rs:543-565: state `Comment`. -/
def atComment (g : Gz) (dataLen : Nat) (parse : Bytes) : GzResult × Gz :=
  if g.flags &&& 0x10 ≠ 0 then
    match afterNul parse with
    | some rest => g.atCrc dataLen rest
    | none => (.ok dataLen, { g with state := .comment })
  else g.atCrc dataLen parse

/-- src/decompressors.rs:520-542: state `Filename`. -/
def atFilename (g : Gz) (dataLen : Nat) (parse : Bytes) : GzResult × Gz :=
  if g.flags &&& 0x08 ≠ 0 then
    match afterNul parse with
    | some rest => g.atComment dataLen rest
    | none => (.ok dataLen, { g with state := .filename })
  else g.atComment dataLen parse

/-- src/decompressors.rs:510-519: state `Extra`. -/
def atExtra (g : Gz) (dataLen : Nat) (parse : Bytes) : GzResult × Gz :=
  if g.xlen > 0 then
    if parse.length < g.xlen then (.ok dataLen, { g with xlen := g.xlen - parse.length, state := .extra })
    else g.atFilename dataLen (parse.drop g.xlen)
  else g.atFilename dataLen parse

/-- src/decompressors.rs:490-509: state `Xlen`. -/
def atXlen (g : Gz) (dataLen : Nat) (parse : Bytes) : GzResult × Gz :=
  if g.flags &&& 0x04 ≠ 0 then
    match leU16 parse with
    | some (rest, xlen) => { g with xlen }.atExtra dataLen rest
    | none => (consumed dataLen parse, { g with state := .xlen })
  else g.atExtra dataLen parse

/-- src/decompressors.rs:452-591 `GzipBufWriter::write`, lines 462-489 for the state `Start`: while the start is
incomplete the data is kept in `buffer`. -/
def write (g : Gz) (data : Bytes) : GzResult × Gz :=
  match g.state with
  | .start =>
    let parse := g.buffer ++ data
    match parseStart parse with
    | .ok (some (rest, flags)) =>
      -- the buffer has been extended only if it was not empty before
      let g := if g.buffer = [] then g else { g with buffer := parse }
      { g with flags }.atXlen data.length rest
    | .ok none => (.ok data.length, { g with buffer := parse })
    | .error _ =>
      let g := if g.buffer = [] then g else { g with buffer := parse }
      (.invalid, g)
  | .xlen => g.atXlen data.length data
  | .extra => g.atExtra data.length data
  | .filename => g.atFilename data.length data
  | .comment => g.atComment data.length data
  | .crc => g.atCrc data.length data
  | .afterHeader => (.inner data, g)

end Gz

end Model

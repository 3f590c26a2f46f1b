/-
Specification of the gzip header (RFC 1952) and of feeding a chain of decompressors.
-/
import Verif.Model.Decompressors

namespace Spec

open Model

/-- A flag of the fourth byte of the header: FHCRC, FEXTRA, FNAME, FCOMMENT. -/
def HasFlag (flags : UInt8) (bit : Nat) : Prop := flags.toNat.testBit bit = true

/-- The end of a header: a checksum of two bytes if flag 1 is set. -/
def IsCrc (flags : UInt8) (r : Bytes) : Prop :=
  (HasFlag flags 1 → r.length = 2) ∧ (¬ HasFlag flags 1 → r = [])

/-- A comment closed by NUL if flag 4 is set, and the checksum. -/
def IsComment (flags : UInt8) (r : Bytes) : Prop :=
  (HasFlag flags 4 → ∃ text rest, r = text ++ 0 :: rest ∧ 0 ∉ text ∧ IsCrc flags rest) ∧
  (¬ HasFlag flags 4 → IsCrc flags r)

/-- A file name closed by NUL if flag 3 is set, and what follows. -/
def IsName (flags : UInt8) (r : Bytes) : Prop :=
  (HasFlag flags 3 → ∃ text rest, r = text ++ 0 :: rest ∧ 0 ∉ text ∧ IsComment flags rest) ∧
  (¬ HasFlag flags 3 → IsComment flags r)

/-- Extra data with its length in front (two bytes, little endian) if flag 2 is set, and what follows. -/
def IsExtra (flags : UInt8) (r : Bytes) : Prop :=
  (HasFlag flags 2 → ∃ lo hi extra rest, r = lo :: hi :: (extra ++ rest) ∧ extra.length = lo.toNat + 256 * hi.toNat ∧
    IsName flags rest) ∧
  (¬ HasFlag flags 2 → IsName flags r)

/-- A gzip header with the given flags: the magic bytes and the method, the flags, six bytes (time, extra flags and
operating system) and the optional parts. -/
def IsGzipHeader (flags : UInt8) (h : Bytes) : Prop :=
  ∃ six rest, h = 0x1f :: 0x8b :: 0x08 :: flags :: (six ++ rest) ∧ six.length = 6 ∧ IsExtra flags rest

/-- No boundary between pieces falls between the two bytes of the length of the extra data, or of the checksum. -/
def FieldsUncut (flags : UInt8) (h : Bytes) (pieces : List Bytes) : Prop :=
  ∀ i, (HasFlag flags 2 → (pieces.take i).flatten.length ≠ 11) ∧
    (HasFlag flags 1 → (pieces.take i).flatten.length + 1 ≠ h.length)

/-- The outputs of a computation all of whose outputs are accepted, and its result. -/
def outputs {α : Type} : Prog α → List (Option Bytes) × Option α
  | .ret a => ([], some a)
  | .stuck => ([], none)
  | .call out next => (out :: (outputs (next true)).1, (outputs (next true)).2)

/-- All the output of a chain for a list of pieces, if it accepts them all. -/
def decompressAll {C : Codecs} (fuel : Nat) : Chain C → List Bytes → Option Bytes
  | _, [] => some []
  | c, p :: ps =>
    match outputs (c.decompress fuel p) with
    | (outs, some (.ok _, c)) => (decompressAll fuel c ps).map fun rest => (outs.map (·.getD [])).flatten ++ rest
    | _ => none

/-- A decoder that hands on what it is given: with it, the output of a gzip chain is what follows the header. -/
def handOn : Codecs where
  State := Unit
  new _ := ()
  write _ buf data := (.ok data.length, (), buf ++ data)
  flush _ buf := (.ok (), (), buf)
  finish _ buf := .ok buf
  hasBuffer _ := true

end Spec

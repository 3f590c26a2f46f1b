/-
The UTF-8 decoder for paths (src/utf8_decoder.rs).
-/
import Verif.Model.Flags

namespace Model

/-- src/utf8_decoder.rs:27-42 `utf8d`. -/
def utf8d : List Nat := [
   0, 0, 0, 0, 0, 0, 0, 0, 0, 0, 0, 0, 0, 0, 0, 0, 0, 0, 0, 0, 0, 0, 0, 0, 0, 0, 0, 0, 0, 0, 0, 0,
   0, 0, 0, 0, 0, 0, 0, 0, 0, 0, 0, 0, 0, 0, 0, 0, 0, 0, 0, 0, 0, 0, 0, 0, 0, 0, 0, 0, 0, 0, 0, 0,
   0, 0, 0, 0, 0, 0, 0, 0, 0, 0, 0, 0, 0, 0, 0, 0, 0, 0, 0, 0, 0, 0, 0, 0, 0, 0, 0, 0, 0, 0, 0, 0,
   0, 0, 0, 0, 0, 0, 0, 0, 0, 0, 0, 0, 0, 0, 0, 0, 0, 0, 0, 0, 0, 0, 0, 0, 0, 0, 0, 0, 0, 0, 0, 0,
   1, 1, 1, 1, 1, 1, 1, 1, 1, 1, 1, 1, 1, 1, 1, 1, 9, 9, 9, 9, 9, 9, 9, 9, 9, 9, 9, 9, 9, 9, 9, 9,
   7, 7, 7, 7, 7, 7, 7, 7, 7, 7, 7, 7, 7, 7, 7, 7, 7, 7, 7, 7, 7, 7, 7, 7, 7, 7, 7, 7, 7, 7, 7, 7,
   8, 8, 2, 2, 2, 2, 2, 2, 2, 2, 2, 2, 2, 2, 2, 2, 2, 2, 2, 2, 2, 2, 2, 2, 2, 2, 2, 2, 2, 2, 2, 2,
   10, 3, 3, 3, 3, 3, 3, 3, 3, 3, 3, 3, 3, 4, 3, 3, 11, 6, 6, 6, 5, 8, 8, 8, 8, 8, 8, 8, 8, 8, 8, 8,
   0, 1, 2, 3, 5, 8, 7, 1, 1, 1, 4, 6, 1, 1, 1, 1, 1, 1, 1, 1, 1, 1, 1, 1, 1, 1, 1, 1, 1, 1, 1, 1,
   1, 0, 1, 1, 1, 1, 1, 0, 1, 0, 1, 1, 1, 1, 1, 1, 1, 2, 1, 1, 1, 1, 1, 2, 1, 2, 1, 1, 1, 1, 1, 1,
   1, 1, 1, 1, 1, 1, 1, 2, 1, 1, 1, 1, 1, 1, 1, 1, 1, 2, 1, 1, 1, 1, 1, 1, 1, 2, 1, 1, 1, 1, 1, 1,
   1, 1, 1, 1, 1, 1, 1, 3, 1, 3, 1, 1, 1, 1, 1, 1, 1, 3, 1, 1, 1, 1, 1, 3, 1, 3, 1, 1, 1, 1, 1, 1,
   1, 3, 1, 1, 1, 1, 1, 1, 1, 1, 1, 1, 1, 1, 1, 1]

/-- src/utf8_decoder.rs:43-58 `utf8d_allow_overlong`. -/
def utf8dAllowOverlong : List Nat := [
   0, 0, 0, 0, 0, 0, 0, 0, 0, 0, 0, 0, 0, 0, 0, 0, 0, 0, 0, 0, 0, 0, 0, 0, 0, 0, 0, 0, 0, 0, 0, 0,
   0, 0, 0, 0, 0, 0, 0, 0, 0, 0, 0, 0, 0, 0, 0, 0, 0, 0, 0, 0, 0, 0, 0, 0, 0, 0, 0, 0, 0, 0, 0, 0,
   0, 0, 0, 0, 0, 0, 0, 0, 0, 0, 0, 0, 0, 0, 0, 0, 0, 0, 0, 0, 0, 0, 0, 0, 0, 0, 0, 0, 0, 0, 0, 0,
   0, 0, 0, 0, 0, 0, 0, 0, 0, 0, 0, 0, 0, 0, 0, 0, 0, 0, 0, 0, 0, 0, 0, 0, 0, 0, 0, 0, 0, 0, 0, 0,
   1, 1, 1, 1, 1, 1, 1, 1, 1, 1, 1, 1, 1, 1, 1, 1, 9, 9, 9, 9, 9, 9, 9, 9, 9, 9, 9, 9, 9, 9, 9, 9,
   7, 7, 7, 7, 7, 7, 7, 7, 7, 7, 7, 7, 7, 7, 7, 7, 7, 7, 7, 7, 7, 7, 7, 7, 7, 7, 7, 7, 7, 7, 7, 7,
   2, 2, 2, 2, 2, 2, 2, 2, 2, 2, 2, 2, 2, 2, 2, 2, 2, 2, 2, 2, 2, 2, 2, 2, 2, 2, 2, 2, 2, 2, 2, 2,
   3, 3, 3, 3, 3, 3, 3, 3, 3, 3, 3, 3, 3, 4, 3, 3, 6, 6, 6, 6, 5, 8, 8, 8, 8, 8, 8, 8, 8, 8, 8, 8,
   0, 1, 2, 3, 5, 8, 7, 1, 1, 1, 4, 6, 1, 1, 1, 1, 1, 1, 1, 1, 1, 1, 1, 1, 1, 1, 1, 1, 1, 1, 1, 1,
   1, 0, 1, 1, 1, 1, 1, 0, 1, 0, 1, 1, 1, 1, 1, 1, 1, 2, 1, 1, 1, 1, 1, 2, 1, 2, 1, 1, 1, 1, 1, 1,
   1, 1, 1, 1, 1, 1, 1, 2, 1, 1, 1, 1, 1, 1, 1, 1, 1, 2, 1, 1, 1, 1, 1, 1, 1, 2, 1, 1, 1, 1, 1, 1,
   1, 1, 1, 1, 1, 1, 1, 3, 1, 3, 1, 1, 1, 1, 1, 1, 1, 3, 1, 1, 1, 1, 1, 3, 1, 3, 1, 1, 1, 1, 1, 1,
   1, 3, 1, 1, 1, 1, 1, 1, 1, 1, 1, 1, 1, 1, 1, 1]

/-- src/utf8_decoder.rs:60-69 `struct Utf8Decoder`; `decoded_bytes` is kept in order. -/
structure Utf8Decoder where
  map : BestfitMap
  state : Nat := 0
  seq : Nat := 0
  codepoint : Nat := 0
  flags : Flags := 0
  seenValid : Bool := false
  decoded : Bytes := []

namespace Utf8Decoder

/-- The character class of a byte, src/utf8_decoder.rs:175 (the index is below 256, in bounds). -/
def byteType (c : UInt8) : Nat := utf8dAllowOverlong.getD c.toNat 0

/-- The next state, src/utf8_decoder.rs:181-183. -/
def nextState (state : Nat) (c : UInt8) : Nat := utf8d.getD (256 + state * 16 + byteType c) 0

/-- src/utf8_decoder.rs:174-184 `decode_byte_allow_overlong`; `codepoint` is a `u32`. -/
def decodeByteAllowOverlong (d : Utf8Decoder) (c : UInt8) : Utf8Decoder :=
  let cp := if d.state ≠ 0 then ((c &&& 0x3f).toNat ||| (d.codepoint <<< 6)) % 2 ^ 32
            else (0xff >>> byteType c) &&& c.toNat
  { d with codepoint := cp, state := nextState d.state c }

/-- src/utf8_decoder.rs:190-196 `bestfit_codepoint`. -/
def bestfitCodepoint (d : Utf8Decoder) : UInt8 :=
  if d.codepoint < 0x100 then UInt8.ofNat d.codepoint else d.map.get d.codepoint

/-- src/utf8_decoder.rs:86-140 `decode_byte`. The recursive call (line 125) happens with `seq = 0`, so
the inner call does not recurse again; `depth` is the recursion depth (2 is always enough). `seq` counts
the bytes of one character, so the wrapping of the `u32` is not modelled. -/
def decodeByteRec : Nat → Utf8Decoder → UInt8 → Bool → Utf8Decoder
  | 0, d, _, _ => d
  | depth + 1, d, c, isLast =>
    let d := { d with seq := d.seq + 1 }
    let d := d.decodeByteAllowOverlong c
    if d.state = 0 then
      let d :=
        if d.seq = 1 then { d with decoded := d.decoded ++ [UInt8.ofNat d.codepoint] }
        else
          let d := { d with seenValid := true }
          let d := if (d.seq = 2 ∧ d.codepoint < 0x80) ∨ (d.seq = 3 ∧ d.codepoint < 0x800) ∨
              (d.seq = 4 ∧ d.codepoint < 0x10000)
            then { d with flags := setFlag d.flags Flag.PATH_UTF8_OVERLONG } else d
          let d := if 0xff00 ≤ d.codepoint ∧ d.codepoint ≤ 0xffef
            then { d with flags := setFlag d.flags Flag.PATH_HALF_FULL_RANGE } else d
          { d with decoded := d.decoded ++ [d.bestfitCodepoint] }
      { d with seq := 0 }
    else if d.state = 1 then
      let d := { d with flags := setFlag d.flags Flag.PATH_UTF8_INVALID, state := 0, codepoint := 0,
                        decoded := d.decoded ++ [d.map.replacement] }
      if d.seq ≠ 1 then decodeByteRec depth { d with seq := 0 } c isLast
      else { d with seq := 0 }
    else if isLast then { d with decoded := d.decoded ++ List.replicate (d.seq - 1) d.map.replacement }
    else d

/-- src/utf8_decoder.rs:86 `decode_byte`. -/
def decodeByte (d : Utf8Decoder) (c : UInt8) (isLast : Bool) : Utf8Decoder := decodeByteRec 2 d c isLast

/-- src/utf8_decoder.rs:156-162, the loop of `decode_and_validate`: a byte is the last one if nothing
follows it. -/
def feed (d : Utf8Decoder) : Bytes → Utf8Decoder
  | [] => d
  | c :: rest => feed (d.decodeByte c rest.isEmpty) rest

/-- src/utf8_decoder.rs:147-167 `decode_and_validate`. -/
def decodeAndValidate (map : BestfitMap) (input : Bytes) : Utf8Decoder :=
  let d := feed { map := map } input
  if d.seenValid ∧ ¬ isSet d.flags Flag.PATH_UTF8_INVALID then
    { d with flags := setFlag d.flags Flag.PATH_UTF8_VALID }
  else d

end Utf8Decoder

/-- src/utf8_decoder.rs:204-222 `decode_and_validate_inplace`: new path, flags and status. -/
def decodeAndValidateInplace (cfg : DecoderConfig) (flags : Flags) (status : Unwanted) (path : Bytes) :
    Bytes × Flags × Unwanted :=
  let d := Utf8Decoder.decodeAndValidate cfg.bestfitMap path
  let path := if cfg.utf8ConvertBestfit then d.decoded else path
  let flags := setFlag flags d.flags
  let status := if isSet flags Flag.PATH_UTF8_INVALID ∧ cfg.utf8InvalidUnwanted ≠ .ignore
    then cfg.utf8InvalidUnwanted else status
  (path, flags, status)

end Model

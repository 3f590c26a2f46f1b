/-
Flag words (src/util.rs:24-63, 71-146) and the enumerations of src/config.rs used by the decoders.
-/
import Verif.Basic

namespace Model

/-- A `u64` flag word. All constants below are smaller than 2^64 and flags are only ever or-ed, so
the width is not modelled. -/
abbrev Flags := Nat

/-- src/util.rs:50-52 `FlagOperations::set`. -/
def setFlag (f m : Flags) : Flags := f ||| m

/-- src/util.rs:58-60 `FlagOperations::is_set`: any bit of the mask. -/
def isSet (f m : Flags) : Bool := (f &&& m) != 0

/-- src/util.rs:54-56 `FlagOperations::unset` (`f & !m`: the bits of `f` that are not in `m`). -/
def unsetFlag (f m : Flags) : Flags := f ^^^ (f &&& m)

namespace Flag
/-! src/util.rs:71-146 `HtpFlags`. -/
def FIELD_UNPARSEABLE : Flags := 0x4
def FIELD_INVALID : Flags := 0x8
def FIELD_FOLDED : Flags := 0x10
def FIELD_REPEATED : Flags := 0x20
def FIELD_LONG : Flags := 0x40
def FIELD_RAW_NUL : Flags := 0x80
def REQUEST_SMUGGLING : Flags := 0x100
def INVALID_FOLDING : Flags := 0x200
def REQUEST_INVALID_T_E : Flags := 0x400
def MULTI_PACKET_HEAD : Flags := 0x800
def HOST_MISSING : Flags := 0x1000
def HOST_AMBIGUOUS : Flags := 0x2000
def PATH_ENCODED_NUL : Flags := 0x4000
def PATH_RAW_NUL : Flags := 0x8000
def PATH_INVALID_ENCODING : Flags := 0x10000
def PATH_INVALID : Flags := 0x20000
def PATH_OVERLONG_U : Flags := 0x40000
def PATH_ENCODED_SEPARATOR : Flags := 0x80000
def PATH_UTF8_VALID : Flags := 0x100000
def PATH_UTF8_INVALID : Flags := 0x200000
def PATH_UTF8_OVERLONG : Flags := 0x400000
def PATH_HALF_FULL_RANGE : Flags := 0x800000
def STATUS_LINE_INVALID : Flags := 0x1000000
def HOSTU_INVALID : Flags := 0x2000000
def HOSTH_INVALID : Flags := 0x4000000
def HOST_INVALID : Flags := HOSTU_INVALID ||| HOSTH_INVALID
def URLEN_ENCODED_NUL : Flags := 0x8000000
def URLEN_INVALID_ENCODING : Flags := 0x10000000
def URLEN_OVERLONG_U : Flags := 0x20000000
def URLEN_HALF_FULL_RANGE : Flags := 0x40000000
def URLEN_RAW_NUL : Flags := 0x80000000
def REQUEST_INVALID : Flags := 0x100000000
def REQUEST_INVALID_C_L : Flags := 0x200000000
def AUTH_INVALID : Flags := 0x400000000
def MISSING_BYTES : Flags := 0x800000000
def REQUEST_MISSING_BYTES : Flags := 0x1000000000 ||| MISSING_BYTES
def RESPONSE_MISSING_BYTES : Flags := 0x2000000000 ||| MISSING_BYTES
end Flag

/-- src/config.rs:269-276 `enum HtpUnwanted`. -/
inductive Unwanted where | ignore | code400 | code404
  deriving Repr, DecidableEq

/-- src/config.rs:281-288 `enum HtpUrlEncodingHandling`. -/
inductive Handling where | preservePercent | removePercent | processInvalid
  deriving Repr, DecidableEq

/-- src/unicode_bestfit_map.rs:4-29 `UnicodeBestfitMap`; the table `bestfit_1252` itself is abstract
(any partial function). -/
structure BestfitMap where
  map : Nat → Option UInt8 := fun _ => none
  replacement : UInt8 := 63

/-- src/unicode_bestfit_map.rs:23-28 `get`. -/
def BestfitMap.get (m : BestfitMap) (k : Nat) : UInt8 :=
  match m.map k with
  | some b => b
  | none => m.replacement

/-- src/config.rs:158-208 `struct DecoderConfig` with the defaults of lines 210-237. -/
structure DecoderConfig where
  doubleDecodeNormalizedPath : Bool := false
  doubleDecodeNormalizedQuery : Bool := false
  backslashConvertSlashes : Bool := false
  convertLowercase : Bool := false
  pathSeparatorsCompress : Bool := false
  pathSeparatorsDecode : Bool := false
  plusspaceDecode : Bool := true
  pathSeparatorsEncodedUnwanted : Unwanted := .ignore
  nulRawTerminates : Bool := false
  nulRawUnwanted : Unwanted := .ignore
  controlCharsUnwanted : Unwanted := .ignore
  allowSpaceUri : Bool := false
  uEncodingDecode : Bool := false
  uEncodingUnwanted : Unwanted := .ignore
  urlEncodingInvalidHandling : Handling := .preservePercent
  urlEncodingInvalidUnwanted : Unwanted := .ignore
  nulEncodedTerminates : Bool := false
  nulEncodedUnwanted : Unwanted := .ignore
  normalizedUriIncludeAll : Bool := false
  utf8InvalidUnwanted : Unwanted := .ignore
  utf8ConvertBestfit : Bool := false
  bestfitMap : BestfitMap := {}

end Model

/-
Model of src/urlencoded.rs.

Arithmetic on `u8` in `x2c` can overflow. With overflow checks (debug builds) that is a panic, without
them (release builds) it wraps; the parameter `ovf` selects the build and `PRes.panic` is the panic.
-/
import Verif.Model.Util
import Verif.Model.Flags

namespace Model

/-- Result of one of the parsers of src/urlencoded.rs, which can also panic. -/
inductive PRes (α : Type) where
  | ok (rest : Bytes) (val : α)
  | err
  | panic
  deriving Repr, DecidableEq

/-- Sequencing of two parsers (`?`). -/
def PRes.bind {α β} (x : PRes α) (f : Bytes → α → PRes β) : PRes β :=
  match x with
  | .ok r a => f r a
  | .err => .err
  | .panic => .panic

/-- `nom::branch::alt`: the next alternative is tried on an error. -/
def PRes.orElse' {α} (x : PRes α) (y : PRes α) : PRes α :=
  match x with
  | .ok r a => .ok r a
  | .err => y
  | .panic => .panic

/-- `nom::multi::fold_many0`: an element that consumes nothing is an error. Every other element
consumes at least one byte, so a `fuel` above the input length is never exhausted. -/
def foldMany0 {α σ} (p : Bytes → PRes α) (g : σ → α → σ) : Nat → σ → Bytes → PRes σ
  | 0, _, _ => .err
  | fuel + 1, acc, i =>
    match p i with
    | .ok r a => if r.length = i.length then .err else foldMany0 p g fuel (g acc a) r
    | .err => .ok i acc
    | .panic => .panic

/-- src/urlencoded.rs:166-170 and 172-176: value of one "hexadecimal" digit; `none` is an overflow
panic. -/
def nibble (ovf : Bool) (c : UInt8) : Option UInt8 :=
  if 65 ≤ c then
    if ovf && (c &&& 0xdf) < 65 then none else some ((c &&& 0xdf) - 65 + 10)
  else if ovf && c < 48 then none else some (c - 48)

/-- src/urlencoded.rs:164-178 `x2c`. -/
def x2c (ovf : Bool) (input : Bytes) : PRes UInt8 :=
  match input with
  | c1 :: c2 :: rest =>
    match nibble ovf c1, nibble ovf c2 with
    | some a, some b =>
      if ovf && (a * 16).toNat + b.toNat > 255 then .panic else .ok rest (a * 16 + b)
    | _, _ => .panic
  | _ => .err

/-- src/unicode_bestfit_map.rs:32-37 `bestfit_key!`. -/
def bestfitKey (c1 c2 : UInt8) : Nat := c1.toNat * 256 + c2.toNat

/-- What one element parser yields: the byte, the expected status code, flags, and whether the byte
is output. -/
structure Elem where
  byte : UInt8
  code : Unwanted
  flags : Flags
  insert : Bool
  deriving Repr, DecidableEq

/-- `tag_no_case("u")` and `alt((char('u'), char('U')))`. -/
def uPrefix (i : Bytes) : PRes Unit :=
  match i with
  | c :: r => if c == 117 || c == 85 then .ok r () else .err
  | [] => .err

/-- `not(tag_no_case("u"))`. -/
def notU (i : Bytes) : PRes Unit :=
  match uPrefix i with
  | .ok _ _ => .err
  | _ => .ok i ()

/-- `take_while_m_n(n, n, is_ascii_hexdigit)`. -/
def takeHex (n : Nat) (i : Bytes) : PRes Bytes :=
  if n ≤ i.length && (i.take n).all isHexDigit then .ok (i.drop n) (i.take n) else .err

/-- `nom::bytes::complete::take(n)`. -/
def takeN (n : Nat) (i : Bytes) : PRes Bytes :=
  if n ≤ i.length then .ok (i.drop n) (i.take n) else .err

/-- src/urlencoded.rs:183-208 `path_decode_u_encoding`. -/
def pathDecodeUEncoding (ovf : Bool) (cfg : DecoderConfig) (i : Bytes) :
    PRes (UInt8 × Flags × Unwanted) :=
  (x2c ovf i).bind fun i c1 =>
  (x2c ovf i).bind fun i c2 =>
    let r := if c1 = 0 then c2 else cfg.bestfitMap.get (bestfitKey c1 c2)
    let flags := if c1 = 0 then Flag.PATH_OVERLONG_U
                 else if c1 = 0xff then Flag.PATH_HALF_FULL_RANGE else 0
    let code := if c1 = 0 then .ignore else cfg.uEncodingUnwanted
    let flags := if r == 47 || cfg.backslashConvertSlashes && r == 92
                 then setFlag flags Flag.PATH_ENCODED_SEPARATOR else flags
    .ok i (r, flags, code)

/-- src/urlencoded.rs:213-229 `decode_u_encoding_params`. -/
def decodeUEncodingParams (ovf : Bool) (cfg : DecoderConfig) (i : Bytes) : PRes (UInt8 × Flags) :=
  (x2c ovf i).bind fun i c1 =>
  (x2c ovf i).bind fun i c2 =>
    if c1 = 0 then .ok i (c2, Flag.URLEN_OVERLONG_U)
    else
      let flags := if c1 = 0xff ∧ c2 ≤ 0xef then Flag.URLEN_HALF_FULL_RANGE else 0
      .ok i (cfg.bestfitMap.get (bestfitKey c1 c2), flags)

/-- src/urlencoded.rs:448-470 `path_decode_control`. -/
def pathDecodeControl (cfg : DecoderConfig) (byte : UInt8) : UInt8 × Unwanted :=
  let code := if byte < 0x20 then cfg.controlCharsUnwanted else .ignore
  let byte := if byte == 92 && cfg.backslashConvertSlashes then 47 else byte
  let byte := if cfg.convertLowercase then lower byte else byte
  (byte, code)

/-- `if code != IGNORE { expected = code }`. -/
def pickCode (expected code : Unwanted) : Unwanted := if code ≠ .ignore then code else expected

/-- The common tail of src/urlencoded.rs:265-269, 303-307. -/
def pathFinish (cfg : DecoderConfig) (output : Bytes) (byte : UInt8) (expected : Unwanted)
    (flags : Flags) : PRes Elem :=
  let bc := pathDecodeControl cfg byte
  .ok output ⟨bc.1, pickCode expected bc.2, flags, true⟩

/-- src/urlencoded.rs:234-271 `path_decode_valid_u_encoding`. -/
def pathDecodeValidUEncoding (ovf : Bool) (cfg : DecoderConfig) (input : Bytes) : PRes Elem :=
  (uPrefix input).bind fun left _ =>
    if cfg.uEncodingDecode then
      (takeHex 4 left).bind fun left hex =>
      (pathDecodeUEncoding ovf cfg hex).bind fun _ bfc =>
        let byte := bfc.1
        let expected := pickCode cfg.uEncodingUnwanted bfc.2.2
        if byte = 0 then
          let flags := setFlag bfc.2.1 Flag.PATH_ENCODED_NUL
          let expected := pickCode expected cfg.nulEncodedUnwanted
          if cfg.nulEncodedTerminates then .ok [] ⟨byte, expected, flags, false⟩
          else pathFinish cfg left byte expected flags
        else pathFinish cfg left byte expected bfc.2.1
    else pathFinish cfg input 37 .ignore 0

/-- src/urlencoded.rs:276-309 `path_decode_invalid_u_encoding`. -/
def pathDecodeInvalidUEncoding (ovf : Bool) (cfg : DecoderConfig) (input : Bytes) : PRes Elem :=
  (uPrefix input).bind fun left _ =>
    if cfg.uEncodingDecode then
      (takeN 4 left).bind fun left hex =>
        match cfg.urlEncodingInvalidHandling with
        | .removePercent =>
          .ok input ⟨37, cfg.urlEncodingInvalidUnwanted, Flag.PATH_INVALID_ENCODING, false⟩
        | .processInvalid =>
          (pathDecodeUEncoding ovf cfg hex).bind fun _ bfc =>
            pathFinish cfg left bfc.1 (pickCode cfg.urlEncodingInvalidUnwanted bfc.2.2)
              (setFlag Flag.PATH_INVALID_ENCODING bfc.2.1)
        | .preservePercent =>
          pathFinish cfg input 37 cfg.urlEncodingInvalidUnwanted Flag.PATH_INVALID_ENCODING
    else pathFinish cfg input 37 .ignore 0

/-- The two "not enough data" alternatives, src/urlencoded.rs:393-402 and 408-417. -/
def pathIncomplete (cfg : DecoderConfig) (input : Bytes) : PRes Elem :=
  .ok input ⟨37, cfg.urlEncodingInvalidUnwanted, Flag.PATH_INVALID_ENCODING,
    decide (cfg.urlEncodingInvalidHandling ≠ .removePercent)⟩

/-- src/urlencoded.rs:314-343 `path_decode_valid_hex`. -/
def pathDecodeValidHex (ovf : Bool) (cfg : DecoderConfig) (input : Bytes) : PRes Elem :=
  (notU input).bind fun _ _ =>
  (takeHex 2 input).bind fun left hex =>
  (x2c ovf hex).bind fun _ byte =>
    let flags := if byte = 0 then Flag.PATH_ENCODED_NUL else 0
    if byte = 0 ∧ cfg.nulEncodedTerminates then .ok [] ⟨byte, cfg.nulEncodedUnwanted, flags, false⟩
    else if byte == 47 || cfg.backslashConvertSlashes && byte == 92 then
      let flags := setFlag flags Flag.PATH_ENCODED_SEPARATOR
      if !cfg.pathSeparatorsDecode then
        let bc := pathDecodeControl cfg 37
        .ok input ⟨bc.1, bc.2, flags, true⟩
      else
        let bc := pathDecodeControl cfg byte
        .ok left ⟨bc.1, bc.2, flags, true⟩
    else
      let bc := pathDecodeControl cfg byte
      .ok left ⟨bc.1, bc.2, flags, true⟩

/-- src/urlencoded.rs:348-372 `path_decode_invalid_hex`. -/
def pathDecodeInvalidHex (ovf : Bool) (cfg : DecoderConfig) (input : Bytes) : PRes Elem :=
  (notU input).bind fun _ _ =>
  (takeN 2 input).bind fun left hex =>
    match cfg.urlEncodingInvalidHandling with
    | .removePercent =>
      .ok input ⟨37, cfg.urlEncodingInvalidUnwanted, Flag.PATH_INVALID_ENCODING, false⟩
    | .processInvalid =>
      (x2c ovf hex).bind fun _ b =>
        let bc := pathDecodeControl cfg b
        .ok left ⟨bc.1, bc.2, Flag.PATH_INVALID_ENCODING, true⟩
    | .preservePercent =>
      let bc := pathDecodeControl cfg 37
      .ok input ⟨bc.1, bc.2, Flag.PATH_INVALID_ENCODING, true⟩

/-- src/urlencoded.rs:380-424 `path_decode_percent`. -/
def pathDecodePercent (ovf : Bool) (cfg : DecoderConfig) (i : Bytes) : PRes Elem :=
  match i with
  | c :: input =>
    if c = 37 then
      (pathDecodeValidUEncoding ovf cfg input).orElse' <|
      (pathDecodeInvalidUEncoding ovf cfg input).orElse' <|
      ((uPrefix input).bind fun _ _ => pathIncomplete cfg input).orElse' <|
      (pathDecodeValidHex ovf cfg input).orElse' <|
      (pathDecodeInvalidHex ovf cfg input).orElse' <|
      pathIncomplete cfg input
    else .err
  | [] => .err

/-- src/urlencoded.rs:430-444 `path_parse_other`. -/
def pathParseOther (cfg : DecoderConfig) (i : Bytes) : PRes Elem :=
  match i with
  | byte :: rest =>
    if byte = 0 ∧ cfg.nulRawTerminates then .ok [] ⟨byte, cfg.nulRawUnwanted, 0, false⟩
    else
      let bc := pathDecodeControl cfg byte
      .ok rest ⟨bc.1, bc.2, 0, true⟩
  | [] => .err

/-- The accumulator of the decoding folds: output, flags, expected status. -/
structure Decoded where
  bytes : Bytes
  flags : Flags
  code : Unwanted
  deriving Repr, DecidableEq

/-- src/urlencoded.rs:486-505: the fold step of `path_decode_uri`. -/
def pathStep (cfg : DecoderConfig) (acc : Decoded) (e : Elem) : Decoded :=
  let bytes :=
    if e.insert then
      if e.byte == 47 && cfg.pathSeparatorsCompress then
        if acc.bytes.getLast? = some 47 then acc.bytes else acc.bytes ++ [e.byte]
      else acc.bytes ++ [e.byte]
    else acc.bytes
  ⟨bytes, setFlag acc.flags e.flags, e.code⟩

/-- One element of a path: src/urlencoded.rs:484. -/
def pathElem (ovf : Bool) (cfg : DecoderConfig) (i : Bytes) : PRes Elem :=
  (pathDecodePercent ovf cfg i).orElse' (pathParseOther cfg i)

/-- src/urlencoded.rs:479-507 `path_decode_uri`. -/
def pathDecodeUri (ovf : Bool) (cfg : DecoderConfig) (input : Bytes) : PRes Decoded :=
  foldMany0 (pathElem ovf cfg) (pathStep cfg) (input.length + 1) ⟨[], 0, .ignore⟩ input

/-- The effect of src/urlencoded.rs:511-525 `path_decode_uri_inplace` on flags, status and path;
`none` is a panic. -/
def pathDecodeUriInplace (ovf : Bool) (cfg : DecoderConfig) (flags : Flags) (status : Unwanted)
    (path : Bytes) : Option (Flags × Unwanted × Bytes) :=
  match pathDecodeUri ovf cfg path with
  | .ok _ d => some (setFlag flags d.flags, d.code, d.bytes)
  | .err => some (flags, status, path)
  | .panic => none

/-- src/urlencoded.rs:587-599 `decode_valid_u_encoding`. -/
def decodeValidUEncoding (ovf : Bool) (cfg : DecoderConfig) (input : Bytes) : PRes Elem :=
  (uPrefix input).bind fun left _ =>
    if cfg.uEncodingDecode then
      (takeHex 4 left).bind fun input hex =>
      (decodeUEncodingParams ovf cfg hex).bind fun _ bf =>
        .ok input ⟨bf.1, cfg.uEncodingUnwanted, bf.2, true⟩
    else .ok input ⟨37, .ignore, 0, true⟩

/-- src/urlencoded.rs:605-635 `decode_invalid_u_encoding`. -/
def decodeInvalidUEncoding (ovf : Bool) (cfg : DecoderConfig) (input : Bytes) : PRes Elem :=
  (uPrefix input).bind fun left _ =>
    if cfg.uEncodingDecode then
      (takeN 4 left).bind fun left hex =>
        let code := if cfg.urlEncodingInvalidUnwanted ≠ .ignore then cfg.urlEncodingInvalidUnwanted
                    else cfg.uEncodingUnwanted
        match cfg.urlEncodingInvalidHandling with
        | .removePercent => .ok input ⟨37, code, Flag.URLEN_INVALID_ENCODING, false⟩
        | .processInvalid =>
          (decodeUEncodingParams ovf cfg hex).bind fun _ bf =>
            .ok left ⟨bf.1, code, setFlag Flag.URLEN_INVALID_ENCODING bf.2, true⟩
        | .preservePercent => .ok input ⟨37, code, Flag.URLEN_INVALID_ENCODING, true⟩
    else .ok input ⟨37, .ignore, 0, true⟩

/-- src/urlencoded.rs:641-649 `decode_valid_hex`. -/
def decodeValidHex (ovf : Bool) (input : Bytes) : PRes Elem :=
  (notU input).bind fun _ _ =>
  (takeHex 2 input).bind fun left hex =>
  (x2c ovf hex).bind fun _ byte => .ok left ⟨byte, .ignore, 0, true⟩

/-- src/urlencoded.rs:655-681 `decode_invalid_hex`. -/
def decodeInvalidHex (ovf : Bool) (cfg : DecoderConfig) (input : Bytes) : PRes Elem :=
  (notU input).bind fun _ _ =>
    match cfg.urlEncodingInvalidHandling with
    | .removePercent =>
      .ok input ⟨37, cfg.urlEncodingInvalidUnwanted, Flag.URLEN_INVALID_ENCODING, false⟩
    | .processInvalid =>
      (x2c ovf input).bind fun left b =>
        .ok left ⟨b, cfg.urlEncodingInvalidUnwanted, Flag.URLEN_INVALID_ENCODING, true⟩
    | .preservePercent =>
      .ok input ⟨37, cfg.urlEncodingInvalidUnwanted, Flag.URLEN_INVALID_ENCODING, true⟩

/-- src/urlencoded.rs:689-727 `decode_percent`. -/
def decodePercent (ovf : Bool) (cfg : DecoderConfig) (i : Bytes) : PRes Elem :=
  match i with
  | c :: input =>
    if c = 37 then
      ((decodeValidUEncoding ovf cfg input).orElse' <|
       (decodeInvalidUEncoding ovf cfg input).orElse' <|
       (decodeValidHex ovf input).orElse' <|
       (decodeInvalidHex ovf cfg input).orElse' <|
       .ok input ⟨37, cfg.urlEncodingInvalidUnwanted, Flag.URLEN_INVALID_ENCODING,
         !decide (cfg.urlEncodingInvalidHandling = .removePercent)⟩).bind fun input e =>
        if e.byte = 0 then
          let e := { e with flags := setFlag e.flags Flag.URLEN_ENCODED_NUL,
                            code := pickCode e.code cfg.nulEncodedUnwanted }
          if cfg.nulEncodedTerminates then .ok [] { e with insert := false } else .ok input e
        else .ok input e
    else .err
  | [] => .err

/-- src/urlencoded.rs:732-746 `decode_plus`. -/
def decodePlus (cfg : DecoderConfig) (i : Bytes) : PRes Elem :=
  match i with
  | c :: rest =>
    if c = 43 then .ok rest ⟨if cfg.plusspaceDecode then 0x20 else c, .ignore, 0, true⟩ else .err
  | [] => .err

/-- src/urlencoded.rs:752-772 `unencoded_byte`. -/
def unencodedByte (cfg : DecoderConfig) (i : Bytes) : PRes Elem :=
  match i with
  | byte :: rest =>
    if byte = 0 then
      .ok (if cfg.nulRawTerminates then [] else rest)
        ⟨byte, cfg.nulRawUnwanted, Flag.URLEN_RAW_NUL, !cfg.nulRawTerminates⟩
    else .ok rest ⟨byte, .ignore, 0, true⟩
  | [] => .err

/-- src/urlencoded.rs:540-549: the fold step of `decode_uri`. -/
def uriStep (acc : Decoded) (e : Elem) : Decoded :=
  ⟨if e.insert then acc.bytes ++ [e.byte] else acc.bytes, setFlag acc.flags e.flags,
   pickCode acc.code e.code⟩

/-- One element: src/urlencoded.rs:538. -/
def uriElem (ovf : Bool) (cfg : DecoderConfig) (i : Bytes) : PRes Elem :=
  (decodePercent ovf cfg i).orElse' <| (decodePlus cfg i).orElse' <| unencodedByte cfg i

/-- src/urlencoded.rs:533-551 `decode_uri`. -/
def decodeUri (ovf : Bool) (cfg : DecoderConfig) (input : Bytes) : PRes Decoded :=
  foldMany0 (uriElem ovf cfg) uriStep (input.length + 1) ⟨[], 0, .ignore⟩ input

/-- src/urlencoded.rs:555-571 `decode_uri_with_flags`: the new flags and `Ok(decoded)` (`err` is an
error; the flags are unchanged then). -/
def decodeUriWithFlags (ovf : Bool) (cfg : DecoderConfig) (flags : Flags) (input : Bytes) :
    PRes (Flags × Bytes) :=
  (decodeUri ovf cfg input).bind fun _ d =>
    let flags := if isSet d.flags Flag.URLEN_INVALID_ENCODING
                 then setFlag flags Flag.PATH_INVALID_ENCODING else flags
    let flags := if isSet d.flags Flag.URLEN_ENCODED_NUL
                 then setFlag flags Flag.PATH_ENCODED_NUL else flags
    let flags := if isSet d.flags Flag.URLEN_RAW_NUL then setFlag flags Flag.PATH_RAW_NUL else flags
    .ok [] (flags, d.bytes)

/-- src/urlencoded.rs:576-581 `decode_uri_inplace`, result ignored as all callers do: the new value
of `input`; `none` is a panic. -/
def decodeUriInplace (ovf : Bool) (cfg : DecoderConfig) (input : Bytes) : Option Bytes :=
  match decodeUri ovf cfg input with
  | .ok _ d => some d.bytes
  | .err => some input
  | .panic => none

/-! ### the form parser -/

/-- src/urlencoded.rs:23-42 `struct Parser` with the initial values of lines 46-58. `params` is the
table's element list (src/table.rs). -/
structure Form where
  cfg : DecoderConfig
  sep : UInt8 := 38
  decodeUrl : Bool := true
  params : List (Bytes × Bytes) := []
  flags : Flags := 0
  code : Unwanted := .ignore
  complete : Bool := false
  sawData : Bool := false
  field : Bytes := []

/-- src/urlencoded.rs:152-157 `name_value`: the name and what follows the first '='; `none` on the
empty segment. -/
def nameValue (input : Bytes) : Option (Bytes × Bytes) :=
  match input with
  | [] => none
  | _ => some (input.takeWhile (· != 61), (input.dropWhile (· != 61)).drop 1)

/-- src/urlencoded.rs:107-114 and 115-122: decode one half of a segment in place. -/
def Form.decodeHalf (ovf : Bool) (f : Form) (s : Bytes) : Option (Form × Bytes) :=
  if f.decodeUrl then
    match decodeUri ovf f.cfg s with
    | .ok _ d => some ({ f with flags := setFlag f.flags d.flags, code := d.code }, d.bytes)
    | .err => some (f, s)
    | .panic => none
  else some (f, s)

/-- src/urlencoded.rs:102-126: the closure run for each segment; `none` is a panic. -/
def Form.segment (ovf : Bool) (f : Form) (seg : Bytes) : Option Form :=
  match nameValue seg with
  | none => some f
  | some (name, value) =>
    match f.decodeHalf ovf name with
    | none => none
    | some (f, name) =>
      match f.decodeHalf ovf value with
      | none => none
      | some (f, value) => some { f with params := f.params ++ [(name, value)] }

/-- src/urlencoded.rs:102: `for_each` over the segments. -/
def Form.segments (ovf : Bool) (f : Form) (segs : List Bytes) : Option Form :=
  segs.foldlM (fun f seg => f.segment ovf seg) f

/-- `rsplitn(2, |c| c == sep)` (src/urlencoded.rs:94-100): the parts before and after the last
separator. -/
def splitLast (sep : UInt8) (s : Bytes) : Option (Bytes × Bytes) :=
  match splitFirst (· == sep) s.reverse with
  | (after, some before) => some (before.reverse, after.reverse)
  | (_, none) => none

/-- src/urlencoded.rs:80-129 `parse_partial`; `none` is a panic. -/
def Form.parsePartial (ovf : Bool) (f : Form) (data : Bytes) : Option Form :=
  let f := { f with field := f.field ++ data }
  if f.field = [] then
    if f.complete && f.params.isEmpty && f.sawData then
      some { f with params := f.params ++ [([], [])] }
    else some f
  else
    let f := { f with sawData := true }
    if f.complete then
      (f.segments ovf (splitOn f.sep f.field)).map fun f => { f with field := [] }
    else
      match splitLast f.sep f.field with
      | none => some f
      | some (input, remaining) =>
        (f.segments ovf (splitOn f.sep input)).map fun f => { f with field := remaining }

/-- src/urlencoded.rs:63-66 `finalize`. -/
def Form.finalize (ovf : Bool) (f : Form) : Option Form :=
  Form.parsePartial ovf { f with complete := true } []

/-- src/urlencoded.rs:72-75 `parse_complete`. -/
def Form.parseComplete (ovf : Bool) (f : Form) (data : Bytes) : Option Form :=
  (f.parsePartial ovf data).bind (Form.finalize ovf)

end Model

/-
What the properties of the C interface speak about: which calls of a program concern one object, what the
same calls do to a parser that is alone, and when a program uses its pointers properly.
-/
import Verif.Model.CApi
import Verif.Spec.Conn

namespace Spec

open Model

/-- The calls of a program on the parser with this name. -/
def ownCalls (p : Nat) (calls : List Call) : List ConnCall :=
  calls.filterMap fun
    | .conn (some h) c => if h = p then some c else none
    | _ => none

/-- The answers to them. -/
def ownAnswers (p : Nat) (calls : List Call) (answers : List Answer) : List Answer :=
  (calls.zip answers).filterMap fun
    | (.conn (some h) _, a) => if h = p then some a else none
    | _ => none

/-- The calls on a parser that is alone. -/
def aloneCalls (e : Env) : List ConnCall → Conn → Except Fault (List Answer × Conn)
  | [], s => .ok ([], s)
  | c :: cs, s =>
    match c.run e s with
    | .error f => .error f
    | .ok (a, s) =>
      match aloneCalls e cs s with
      | .error f => .error f
      | .ok (as, s) => .ok (a :: as, s)

/-- The operation of the Rust interface a call stands for, if it is more than a question. -/
def rustOp : ConnCall → Option Op
  | .open => some .open
  | .requestData none 0 => some (.request (.data []))
  | .requestData none (n + 1) => some (.request (.gap (n + 1)))
  | .requestData (some m) n => some (.request (.data (m.take n)))
  | .responseData none 0 => some (.response (.data []))
  | .responseData none (n + 1) => some (.response (.gap (n + 1)))
  | .responseData (some m) n => some (.response (.data (m.take n)))
  | .requestClose => some .requestClose
  | .close => some .close
  | .txDestroy none => none
  | .txDestroy (some t) => some (.removeTx t.index)
  | .getRequestTx => some .askRequest
  | .getResponseTx => some .askResponse
  | .tx _ | .txSize | .requestDataConsumed | .responseDataConsumed => none

/-- What the calls of a program make of the configuration with this name: each setter and each registration
in turn. -/
def ownSettings (h : Nat) : List Call → Settings → Settings
  | [], st => st
  | .configSet (some j) s :: cs, st =>
    ownSettings h cs (if j = h then { st with cfg := s.apply st.cfg } else st)
  | .configRegister (some j) k f :: cs, st => ownSettings h cs (if j = h then st.register k f else st)
  | _ :: cs, st => ownSettings h cs st

/-- Does the memory of the chunk have the length given? -/
def inBounds : ConnCall → Prop
  | .requestData (some m) n | .responseData (some m) n => n ≤ m.length
  | _ => True

instance (c : ConnCall) : Decidable (inBounds c) := by
  cases c with
  | requestData d n => cases d <;> (unfold inBounds; infer_instance)
  | responseData d n => cases d <;> (unfold inBounds; infer_instance)
  | _ => unfold inBounds; infer_instance

/-- A program uses its pointers properly: `cs` and `ps` are the configurations and parsers it has and
`next` the name of the next one it gets. NULL is passed everywhere but to `htp_connp_destroy_all`. -/
def Proper : List Call → (cs ps : List Nat) → (next : Nat) → Prop
  | [], _, _, _ => True
  | .configCreate :: l, cs, ps, n => Proper l (n :: cs) ps (n + 1)
  | .configDestroy none :: l, cs, ps, n => Proper l cs ps n
  | .configDestroy (some h) :: l, cs, ps, n => h ∈ cs ∧ Proper l (cs.filter (· ≠ h)) ps n
  | .configSet none _ :: l, cs, ps, n => Proper l cs ps n
  | .configSet (some h) _ :: l, cs, ps, n => h ∈ cs ∧ Proper l cs ps n
  | .configRegister none _ _ :: l, cs, ps, n => Proper l cs ps n
  | .configRegister (some h) _ _ :: l, cs, ps, n => h ∈ cs ∧ Proper l cs ps n
  | .connpCreate none :: l, cs, ps, n => Proper l cs (n :: ps) (n + 1)
  | .connpCreate (some h) :: l, cs, ps, n => h ∈ cs ∧ Proper l cs (n :: ps) (n + 1)
  | .connpDestroyAll none :: _, _, _, _ => False
  | .connpDestroyAll (some h) :: l, cs, ps, n => h ∈ ps ∧ Proper l cs (ps.filter (· ≠ h)) n
  | .conn none _ :: l, cs, ps, n => Proper l cs ps n
  | .conn (some h) c :: l, cs, ps, n => h ∈ ps ∧ inBounds c ∧ Proper l cs ps n

/-! C strings -/

/-- The text of a byte string for C: each NUL is written as a backslash and a zero digit. -/
def cText (s : Bytes) : Bytes := s.flatMap fun c => if c = 0 then [92, 48] else [c]

/-- A C string: the bytes, none of them NUL, and the NUL that ends it; nothing more is allocated. -/
def CString (mem : List (Option UInt8)) (text : Bytes) : Prop :=
  0 ∉ text ∧ mem = (text ++ [0]).map some

/-! Options -/

/-- The options of a configuration that a C program can set one by one. -/
inductive Setting where
  | backslashConvertSlashes | bestfitReplacementByte | compressionBombLimit | compressionTimeLimit
  | convertLowercase | fieldLimit | lzmaMemlimit | lzmaLayers | maxTx | nulEncodedTerminates
  | nulRawTerminates | pathSeparatorsCompress | plusspaceDecode | pathSeparatorsDecode
  | requestDecompression | decompressionLayerLimit | allowSpaceUri | uEncodingDecode
  | urlEncodingInvalidHandling | utf8ConvertBestfit | doubleDecodeNormalizedQuery
  | doubleDecodeNormalizedPath | normalizedUriIncludeAll | txAutoDestroy | flushIncomplete
  | parseUrlencoded
  deriving DecidableEq, Repr

/-- The value of an option. -/
inductive OptionValue where
  | bool (b : Bool)
  | number (n : Nat)
  | limit (n : Option Nat)
  | byte (b : UInt8)
  | handling (h : Handling)
  deriving DecidableEq, Repr

/-- What the configuration says about an option. -/
def readSetting (c : Config) : Setting → OptionValue
  | .backslashConvertSlashes => .bool c.decoderCfg.backslashConvertSlashes
  | .bestfitReplacementByte => .byte c.decoderCfg.bestfitMap.replacement
  | .compressionBombLimit => .number c.compressionOptions.bombLimit
  | .compressionTimeLimit => .number c.compressionOptions.timeLimit
  | .convertLowercase => .bool c.decoderCfg.convertLowercase
  | .fieldLimit => .number c.fieldLimit
  | .lzmaMemlimit => .limit c.compressionOptions.lzma
  | .lzmaLayers => .limit c.compressionOptions.lzmaLayers
  | .maxTx => .number c.maxTx
  | .nulEncodedTerminates => .bool c.decoderCfg.nulEncodedTerminates
  | .nulRawTerminates => .bool c.decoderCfg.nulRawTerminates
  | .pathSeparatorsCompress => .bool c.decoderCfg.pathSeparatorsCompress
  | .plusspaceDecode => .bool c.decoderCfg.plusspaceDecode
  | .pathSeparatorsDecode => .bool c.decoderCfg.pathSeparatorsDecode
  | .requestDecompression => .bool c.requestDecompressionEnabled
  | .decompressionLayerLimit => .limit c.compressionOptions.layerLimit
  | .allowSpaceUri => .bool c.decoderCfg.allowSpaceUri
  | .uEncodingDecode => .bool c.decoderCfg.uEncodingDecode
  | .urlEncodingInvalidHandling => .handling c.decoderCfg.urlEncodingInvalidHandling
  | .utf8ConvertBestfit => .bool c.decoderCfg.utf8ConvertBestfit
  | .doubleDecodeNormalizedQuery => .bool c.decoderCfg.doubleDecodeNormalizedQuery
  | .doubleDecodeNormalizedPath => .bool c.decoderCfg.doubleDecodeNormalizedPath
  | .normalizedUriIncludeAll => .bool c.decoderCfg.normalizedUriIncludeAll
  | .txAutoDestroy => .bool c.txAutoDestroy
  | .flushIncomplete => .bool c.flushIncomplete
  | .parseUrlencoded => .bool c.parseUrlencoded

end Spec

/-
Model of the C interface (src/c_api): pointers, C strings, the setters of a configuration, the values
handed out, and programs that use several configurations and parsers at the same time. Logs, and strings
that the program has to free, are in `CLog`. Not modelled: user data, addresses, times, `htp_get_version`.
-/
import Verif.Model.Connection

namespace Model

/-- What a call can do instead of returning. `null`: it dereferences (or frees) NULL. `dangling`: it is
given a pointer to an object that does not exist (any more). `bounds`: it goes past the end of the memory
it was given. `abort`: a panic reached the C interface. -/
inductive Fault where
  | null | dangling | bounds | abort
  deriving DecidableEq, Repr

/-- A C pointer to something that can be read: NULL, or the object. -/
abbrev Ptr (α : Type) := Option α

/-- `*p` without a check. -/
def Ptr.deref {α : Type} : Ptr α → Except Fault α
  | none => .error .null
  | some a => .ok a

/-- `isize::try_from(n).unwrap_or(-1)` and `n.try_into().ok().unwrap_or(-1)` for `isize` and `i64`. -/
def signed (n : Nat) : Int := if n < 2 ^ 63 then n else -1

/-! C strings -/

/-- `CStr::from_ptr(p).to_bytes()`: the bytes before the first NUL. Without a NUL the read goes past the end
of the memory at `p`. -/
def cStr : Ptr Bytes → Except Fault Bytes
  | none => .error .null
  | some m => if 0 ∈ m then .ok (m.takeWhile (· != 0)) else .error .bounds

/-- src/c_api/bstr.rs:17-21 `bstr_free`: NULL is allowed. (Here and below the result is what matters; memory
is not tracked.) -/
def bstrFree (_b : Ptr Bytes) : Except Fault Unit := .ok ()

/-- src/c_api/bstr.rs:27-29 `bstr_len`. -/
def bstrLen (x : Ptr Bytes) : Except Fault Nat := do return (← x.deref).length

/-- src/c_api/bstr.rs:57-61, 74-78 `match … { Less => -1, Equal => 0, Greater => 1 }`. -/
def orderingToC : Ordering → Int
  | .lt => -1
  | .eq => 0
  | .gt => 1

/-- src/c_api/bstr.rs:55-62 `bstr_cmp_c`. -/
def bstrCmpC (b c : Ptr Bytes) : Except Fault Int := do
  let cs ← cStr c
  return orderingToC (cmpSlice (← b.deref) cs)

/-- src/c_api/bstr.rs:72-79 `bstr_cmp_c_nocase`. -/
def bstrCmpCNocase (b c : Ptr Bytes) : Except Fault Int := do
  let cs ← cStr c
  return orderingToC (cmpNocase (← b.deref) cs)

/-- src/c_api/bstr.rs:86-91 `bstr_dup_c`. -/
def bstrDupC (c : Ptr Bytes) : Except Fault Bytes := cStr c

/-- `dst[i] = b` for a slice: a panic out of bounds. A byte of `malloc`ed memory has no value before. -/
def storeByte (dst : List (Option UInt8)) (i : Nat) (b : UInt8) : Except Fault (List (Option UInt8)) :=
  if i < dst.length then .ok (dst.set i (some b)) else .error .abort

/-- src/c_api/bstr.rs:123-133: the loop that copies, with the index of the next byte to write. -/
def strdupLoop : Bytes → List (Option UInt8) → Nat → Except Fault (List (Option UInt8) × Nat)
  | [], dst, i => .ok (dst, i)
  | c :: src, dst, i =>
    if c = 0 then
      match storeByte dst i 92 with
      | .error f => .error f
      | .ok dst =>
        match storeByte dst (i + 1) 48 with
        | .error f => .error f
        | .ok dst => strdupLoop src dst (i + 2)
    else
      match storeByte dst i c with
      | .error f => .error f
      | .ok dst => strdupLoop src dst (i + 1)

/-- src/c_api/bstr.rs:111-116: the count of NULs, from 1. -/
def nullCount (src : Bytes) : Nat := src.foldl (fun n c => if c = 0 then n + 1 else n) 1

/-- src/c_api/bstr.rs:102-137 `bstr_util_strdup_to_c`. `enough` says whether `malloc` finds that many bytes.
The result is the memory handed out. -/
def bstrUtilStrdupToC (enough : Nat → Bool) (b : Ptr Bytes) : Except Fault (Ptr (List (Option UInt8))) :=
  match b with
  | none => .ok none
  | some src =>
    let newlen := src.length + nullCount src
    if enough newlen then
      match strdupLoop src (List.replicate newlen none) 0 with
      | .error f => .error f
      | .ok (dst, i) =>
        match storeByte dst i 0 with
        | .error f => .error f
        | .ok dst => .ok (some dst)
    else .ok none

/-! Configurations -/

/-- The functions `htp_config_set_*` of src/c_api/config.rs with their second argument as the C program
passes it (`int` as an integer, `size_t` and `unsigned` as natural numbers). -/
inductive Setter where
  | backslashConvertSlashes (enabled : Int)
  | bestfitReplacementByte (b : Int)
  | compressionBombLimit (limit : Nat)
  | compressionTimeLimit (limit : Nat)
  | convertLowercase (enabled : Int)
  | fieldLimit (limit : Nat)
  | lzmaMemlimit (limit : Nat)
  | lzmaLayers (limit : Int)
  | maxTx (limit : Nat)
  | nulEncodedTerminates (enabled : Int)
  | nulRawTerminates (enabled : Int)
  | parseRequestCookies (enabled : Int)
  | pathSeparatorsCompress (enabled : Int)
  | plusspaceDecode (enabled : Int)
  | pathSeparatorsDecode (enabled : Int)
  | requestDecompression (enabled : Int)
  | decompressionLayerLimit (limit : Int)
  | allowSpaceUri (allow : Bool)
  | serverPersonality (p : Personality)
  | uEncodingDecode (enabled : Int)
  | urlEncodingInvalidHandling (h : Handling)
  | utf8ConvertBestfit (enabled : Int)
  | doubleDecodeNormalizedQuery (set : Bool)
  | doubleDecodeNormalizedPath (set : Bool)
  | normalizedUriIncludeAll (set : Bool)
  | txAutoDestroy (enabled : Int)
  | flushIncomplete (enabled : Int)
  | parseUrlencoded (enabled : Int)
  deriving Repr, DecidableEq

/-- src/c_api/config.rs:343-347, 463-467 `if limit <= 0 { None } else { limit.try_into().ok() }`. -/
def limitOfInt (limit : Int) : Option Nat := if limit ≤ 0 then none else some limit.toNat

/-- src/decompressors.rs:58-67 `set_lzma_memlimit`. -/
def lzmaOfLimit (limit : Nat) : Option Nat := if limit = 0 then none else some limit

/-- src/c_api/config.rs:255-619: the effect of a setter on the configuration (src/config.rs:400-633,
src/decompressors.rs:44-118). Only `htp_config_set_server_personality` has a result. `b as u8` keeps the
lowest eight bits. -/
def Setter.apply (c : Config) : Setter → Config
  | .backslashConvertSlashes n => c.setBackslashConvertSlashes (n == 1)
  | .bestfitReplacementByte b => { c with decoderCfg := { c.decoderCfg with
      bestfitMap := { c.decoderCfg.bestfitMap with replacement := UInt8.ofNat (b % 256).toNat } } }
  | .compressionBombLimit n => { c with compressionOptions := { c.compressionOptions with bombLimit := n } }
  | .compressionTimeLimit n => { c with compressionOptions := { c.compressionOptions with timeLimit := n } }
  | .convertLowercase n => c.setConvertLowercase (n == 1)
  | .fieldLimit n => { c with fieldLimit := n }
  | .lzmaMemlimit n => { c with compressionOptions := { c.compressionOptions with lzma := lzmaOfLimit n } }
  | .lzmaLayers n => { c with compressionOptions := { c.compressionOptions with lzmaLayers := limitOfInt n } }
  | .maxTx n => { c with maxTx := n }
  | .nulEncodedTerminates n => { c with decoderCfg := { c.decoderCfg with nulEncodedTerminates := n == 1 } }
  | .nulRawTerminates n => { c with decoderCfg := { c.decoderCfg with nulRawTerminates := n == 1 } }
  | .parseRequestCookies _ => c
  | .pathSeparatorsCompress n => c.setPathSeparatorsCompress (n == 1)
  | .plusspaceDecode n => { c with decoderCfg := { c.decoderCfg with plusspaceDecode := n == 1 } }
  | .pathSeparatorsDecode n => c.setPathSeparatorsDecode (n == 1)
  | .requestDecompression n => { c with requestDecompressionEnabled := n == 1 }
  | .decompressionLayerLimit n =>
    { c with compressionOptions := { c.compressionOptions with layerLimit := limitOfInt n } }
  | .allowSpaceUri b => { c with decoderCfg := { c.decoderCfg with allowSpaceUri := b } }
  | .serverPersonality p => (c.setServerPersonality p).2
  | .uEncodingDecode n => c.setUEncodingDecode (n == 1)
  | .urlEncodingInvalidHandling h => c.setUrlEncodingInvalidHandling h
  | .utf8ConvertBestfit n => c.setUtf8ConvertBestfit (n == 1)
  | .doubleDecodeNormalizedQuery b =>
    { c with decoderCfg := { c.decoderCfg with doubleDecodeNormalizedQuery := b } }
  | .doubleDecodeNormalizedPath b =>
    { c with decoderCfg := { c.decoderCfg with doubleDecodeNormalizedPath := b } }
  | .normalizedUriIncludeAll b => { c with decoderCfg := { c.decoderCfg with normalizedUriIncludeAll := b } }
  | .txAutoDestroy n => { c with txAutoDestroy := n == 1 }
  | .flushIncomplete n => { c with flushIncomplete := n == 1 }
  | .parseUrlencoded n => { c with parseUrlencoded := n == 1 }

/-- The hooks for which there is a function `htp_config_register_*` (src/c_api/config.rs:44-247; the one
for logs, lines 34-38, is not included). -/
inductive Registrable where
  | requestBodyData | requestComplete | requestHeaders | requestHeaderData | requestLine | requestStart
  | requestTrailer | requestTrailerData | responseBodyData | responseComplete | responseHeaders
  | responseHeaderData | responseStart | responseTrailer | responseTrailerData | transactionComplete
  deriving DecidableEq, Repr

/-- src/c_api/config.rs:44-247: the hook of the configuration a function registers with, as the hook that
an event is a run of. -/
def Registrable.of : Event → Option Registrable
  | .tx .requestStart _ => some .requestStart
  | .tx .requestLine _ => some .requestLine
  | .tx .requestHeaders _ => some .requestHeaders
  | .tx .requestTrailer _ => some .requestTrailer
  | .tx .requestComplete _ => some .requestComplete
  | .tx .responseStart _ => some .responseStart
  | .tx .responseHeaders _ => some .responseHeaders
  | .tx .responseTrailer _ => some .responseTrailer
  | .tx .responseComplete _ => some .responseComplete
  | .tx .transactionComplete _ => some .transactionComplete
  | .tx .requestUriNormalize _ => none
  | .tx .responseLine _ => none
  | .data .requestHeaderData _ _ => some .requestHeaderData
  | .data .requestTrailerData _ _ => some .requestTrailerData
  | .data .requestBodyData _ _ => some .requestBodyData
  | .data .responseHeaderData _ _ => some .responseHeaderData
  | .data .responseTrailerData _ _ => some .responseTrailerData
  | .data .responseBodyData _ _ => some .responseBodyData
  | .data .requestBodyDataTx _ _ => none
  | .data .responseBodyDataTx _ _ => none

/-- A C callback: its answer may depend on everything reported on the connection so far. -/
abbrev CCallback := List Event → Event → Status

/-- A `Config` object: the options, and the callbacks of each hook. -/
structure Settings where
  cfg : Config := {}
  hooks : Registrable → Hook (List Event × Event) := fun _ => []

/-- src/c_api/config.rs:44-247 `htp_config_register_*`: `register_extern`. -/
def Settings.register (st : Settings) (k : Registrable) (f : CCallback) : Settings :=
  { st with hooks := fun j =>
      if j = k then (st.hooks j).registerExtern fun x => (f x.1 x.2, x) else st.hooks j }

/-- What a parser with these settings runs with; `base` gives what does not depend on the configuration. A
C program has no parameter processor. -/
def Settings.env (base : Env) (st : Settings) : Env :=
  { base with
    cfg := st.cfg
    parameterProcessor := none
    hook := fun h ev =>
      match Registrable.of ev with
      | some k => ((st.hooks k).runAll (h, ev)).1
      | none => .ok () }

/-! Parsers -/

/-- The functions on a parser (src/c_api/connection_parser.rs:29-322, src/c_api/transaction.rs:15-19). The
data of a chunk is a pointer with the memory that can be read there, and a length. -/
inductive ConnCall where
  | open
  | requestData (data : Ptr Bytes) (len : Nat)
  | responseData (data : Ptr Bytes) (len : Nat)
  | requestClose
  | close
  | txDestroy (tx : Ptr Tx)
  | getRequestTx
  | getResponseTx
  | tx (id : Nat)
  | txSize
  | requestDataConsumed
  | responseDataConsumed

/-- src/connection_parser.rs:257-272 `From<(*const u8, usize)>`. -/
def chunkOfC (data : Ptr Bytes) (len : Nat) : Except Fault Chunk :=
  match data with
  | none => .ok (if len > 0 then .gap len else .data [])
  | some m => if len ≤ m.length then .ok (.data (m.take len)) else .error .bounds

/-- What a call on a parser answers. -/
inductive Answer where
  | void
  | stream (s : Option StreamState)
  | tx (t : Ptr Tx)
  | int (n : Int)
  | status (s : Status)
  | handle (h : Nat)
  deriving DecidableEq, Repr

/-- src/c_api/connection_parser.rs:241-260 `htp_connp_tx`: a transaction that has not started is not handed
out. -/
def connpTx (s : Conn) (id : Nat) : Ptr Tx :=
  match s.txs.get id with
  | some t => if t.isStarted then some t else none
  | none => none

/-- src/c_api/connection_parser.rs:29-322: one call on a parser that exists. -/
def ConnCall.run (e : Env) (s : Conn) : ConnCall → Except Fault (Answer × Conn)
  | .open =>
    match Op.run e .open s with
    | (.ok _, s) => .ok (.void, s)
    | (.error _, _) => .error .abort
  | .requestData data len =>
    match chunkOfC data len with
    | .error f => .error f
    | .ok c =>
      match Op.run e (.request c) s with
      | (.ok r, s) => .ok (.stream r, s)
      | (.error _, _) => .error .abort
  | .responseData data len =>
    match chunkOfC data len with
    | .error f => .error f
    | .ok c =>
      match Op.run e (.response c) s with
      | (.ok r, s) => .ok (.stream r, s)
      | (.error _, _) => .error .abort
  | .requestClose =>
    match Op.run e .requestClose s with
    | (.ok _, s) => .ok (.void, s)
    | (.error _, _) => .error .abort
  | .close =>
    match Op.run e .close s with
    | (.ok _, s) => .ok (.void, s)
    | (.error _, _) => .error .abort
  | .txDestroy none => .ok (.void, s)
  | .txDestroy (some t) =>
    match Op.run e (.removeTx t.index) s with
    | (.ok _, s) => .ok (.void, s)
    | (.error _, _) => .error .abort
  | .getRequestTx =>
    match askRequest e s with
    | (.ok t, s) => .ok (.tx t, s)
    | (.error _, _) => .error .abort
  | .getResponseTx =>
    match askResponse e s with
    | (.ok t, s) => .ok (.tx t, s)
    | (.error _, _) => .error .abort
  | .tx id => .ok (.tx (connpTx s id), s)
  | .txSize => .ok (.int (signed s.txs.size), s)
  | .requestDataConsumed => .ok (.int (signed s.req.bytesConsumed), s)
  | .responseDataConsumed => .ok (.int (signed s.resp.bytesConsumed), s)

/-- What the functions answer when the parser is NULL. -/
def ConnCall.onNull : ConnCall → Answer
  | .open | .requestClose | .close | .txDestroy _ => .void
  | .requestData _ _ | .responseData _ _ => .stream (some .error)
  | .getRequestTx | .getResponseTx | .tx _ => .tx none
  | .txSize | .requestDataConsumed | .responseDataConsumed => .int (-1)

/-! What is handed out about a transaction -/

/-- src/c_api/transaction.rs:27-39 `htp_tx_normalized_uri`. The configuration is reached through the
transaction, before the check for NULL. -/
def txNormalizedUri (tx : Ptr (Config × Tx)) : Except Fault (Ptr Bytes) :=
  match tx.deref with
  | .error f => .error f
  | .ok (cfg, _) =>
    if cfg.decoderCfg.normalizedUriIncludeAll then .ok (tx.bind fun x => x.2.completeNormalizedUri)
    else .ok (tx.bind fun x => x.2.partialNormalizedUri)

/-- src/c_api/transaction.rs: the functions that hand out a number or a yes or no of a transaction. -/
inductive TxNumber where
  | index | requestHeadersSize | responseHeadersSize | requestContentLength | responseContentLength
  | requestMessageLen | requestEntityLen | responseMessageLen | responseEntityLen | requestPortNumber
  | responseStatusNumber | responseStatusExpectedNumber | isProtocol09 | isHttp2Upgrade | flags
  deriving DecidableEq, Repr

/-- src/c_api/transaction.rs:173-175, 186-190 (`… as i32`). -/
def boolToC (b : Bool) : Int := if b then 1 else 0

/-- src/config.rs:269-276: the values of `HtpUnwanted` as `i32`. -/
def unwantedToC : Unwanted → Int
  | .ignore => 0
  | .code400 => 400
  | .code404 => 404

/-- src/c_api/transaction.rs:173-703: their answers. -/
def TxNumber.call (g : TxNumber) : Ptr Tx → Int
  | none =>
    match g with
    | .isProtocol09 | .isHttp2Upgrade | .flags => 0
    | _ => -1
  | some t =>
    match g with
    | .index => signed t.index
    | .requestHeadersSize => signed t.requestHeaders.length
    | .responseHeadersSize => signed t.responseHeaders.length
    | .requestContentLength => (t.requestContentLength.map signed).getD (-1)
    | .responseContentLength => (t.responseContentLength.map signed).getD (-1)
    | .requestMessageLen => signed t.requestMessageLen
    | .requestEntityLen => signed t.requestEntityLen
    | .responseMessageLen => signed t.responseMessageLen
    | .responseEntityLen => signed t.responseEntityLen
    | .requestPortNumber => (t.requestPortNumber.map Int.ofNat).getD (-1)
    | .responseStatusNumber =>
      match t.responseStatusNumber with
      | .unknown => 0
      | .invalid => -1
      | .valid n => n
    | .responseStatusExpectedNumber => unwantedToC t.responseStatusExpectedNumber
    | .isProtocol09 => boolToC t.isProtocol09
    | .isHttp2Upgrade => boolToC t.isHttp2Upgrade
    | .flags => t.flags

/-! Programs -/

/-- A parser with the copy of the configuration it was created with. -/
structure CParser where
  env : Env
  conn : Conn

/-- The objects that exist; `next` names the next one to be allocated. An address is taken to be used once
only (after `free`, an allocator may use it again). -/
structure World where
  configs : Nat → Option Settings := fun _ => none
  parsers : Nat → Option CParser := fun _ => none
  next : Nat := 1

/-- A call of the C program. A pointer is `none` (NULL) or the name of an object. -/
inductive Call where
  | configCreate
  | configDestroy (cfg : Option Nat)
  | configSet (cfg : Option Nat) (s : Setter)
  | configRegister (cfg : Option Nat) (k : Registrable) (f : CCallback)
  | connpCreate (cfg : Option Nat)
  | connpDestroyAll (connp : Option Nat)
  | conn (connp : Option Nat) (c : ConnCall)

/-- src/config.rs:435-496: the result of a setter (only the personality has one). -/
def Setter.answer (c : Config) : Setter → Answer
  | .serverPersonality p =>
    match (c.setServerPersonality p).1 with
    | .ok _ => .status .ok
    | .error st => .status st
  | _ => .void

/-- src/c_api/config.rs:485-492: the answer for NULL. -/
def Setter.onNull : Setter → Answer
  | .serverPersonality _ => .status .error
  | _ => .void

/-- Writes one entry. -/
def update {α : Type} (f : Nat → Option α) (k : Nat) (v : Option α) : Nat → Option α :=
  fun j => if j = k then v else f j

/-- One call. src/c_api/config.rs:13-28 (`htp_config_create`, `htp_config_destroy`), 34-619;
src/c_api/connection_parser.rs:51-55 (`htp_connp_create`: the configuration is copied), 62-64
(`htp_connp_destroy_all`: no check for NULL). -/
def Call.run (base : Env) (w : World) : Call → Except Fault (Answer × World)
  | .configCreate =>
    .ok (.handle w.next, { w with configs := update w.configs w.next (some {}), next := w.next + 1 })
  | .configDestroy none => .ok (.void, w)
  | .configDestroy (some h) =>
    match w.configs h with
    | none => .error .dangling
    | some _ => .ok (.void, { w with configs := update w.configs h none })
  | .configSet none s => .ok (s.onNull, w)
  | .configSet (some h) s =>
    match w.configs h with
    | none => .error .dangling
    | some st => .ok (s.answer st.cfg, { w with
        configs := update w.configs h (some { st with cfg := s.apply st.cfg }) })
  | .configRegister none _ _ => .ok (.void, w)
  | .configRegister (some h) k f =>
    match w.configs h with
    | none => .error .dangling
    | some st => .ok (.void, { w with configs := update w.configs h (some (st.register k f)) })
  | .connpCreate none =>
    .ok (.handle w.next, { w with
      parsers := update w.parsers w.next (some ⟨({} : Settings).env base, {}⟩), next := w.next + 1 })
  | .connpCreate (some h) =>
    match w.configs h with
    | none => .error .dangling
    | some st => .ok (.handle w.next, { w with
        parsers := update w.parsers w.next (some ⟨st.env base, {}⟩), next := w.next + 1 })
  | .connpDestroyAll none => .error .null
  | .connpDestroyAll (some h) =>
    match w.parsers h with
    | none => .error .dangling
    | some _ => .ok (.void, { w with parsers := update w.parsers h none })
  | .conn none c => .ok (c.onNull, w)
  | .conn (some h) c =>
    match w.parsers h with
    | none => .error .dangling
    | some p =>
      match c.run p.env p.conn with
      | .error f => .error f
      | .ok (a, s) => .ok (a, { w with parsers := update w.parsers h (some { p with conn := s }) })

/-- A program: its calls one after the other, with their answers. -/
def runCalls (base : Env) : List Call → World → Except Fault (List Answer × World)
  | [], w => .ok ([], w)
  | c :: cs, w =>
    match c.run base w with
    | .error f => .error f
    | .ok (a, w) =>
      match runCalls base cs w with
      | .error f => .error f
      | .ok (as, w) => .ok (a :: as, w)

end Model

/-
Model of src/transaction.rs: the transaction record and the functions that work on it alone. The
logger, the shared configuration (passed to the functions that read it), user data and the
transaction's own hooks are not part of the record.
-/
import Verif.Model.Config
import Verif.Model.Table
import Verif.Model.UriNorm
import Verif.Model.HeaderParser

namespace Model

/-- Why a function stopped: a status returned through `Err`, or a panic. -/
inductive Err where
  | status (s : Status)
  | panic
  deriving Repr, DecidableEq

/-- src/request.rs:33-95 `enum HtpMethod`. -/
inductive Method where
  | unknown | head | get | put | post | delete | connect | options | trace | patch | propfind
  | proppatch | mkcol | copy | move | lock | unlock | versionControl | checkout | uncheckout
  | checkin | update | label | report | mkworkspace | mkactivity | baselineControl | merge
  | invalid | error
  deriving Repr, DecidableEq

/-- The names recognized by src/request.rs:99-131 `HtpMethod::new`. -/
def methodNames : List (Bytes × Method) :=
  [(b! "GET", .get), (b! "PUT", .put), (b! "POST", .post), (b! "DELETE", .delete),
   (b! "CONNECT", .connect), (b! "OPTIONS", .options), (b! "TRACE", .trace), (b! "PATCH", .patch),
   (b! "PROPFIND", .propfind), (b! "PROPPATCH", .proppatch), (b! "MKCOL", .mkcol),
   (b! "COPY", .copy), (b! "MOVE", .move), (b! "LOCK", .lock), (b! "UNLOCK", .unlock),
   (b! "VERSION-CONTROL", .versionControl), (b! "CHECKOUT", .checkout),
   (b! "UNCHECKOUT", .uncheckout), (b! "CHECKIN", .checkin), (b! "UPDATE", .update),
   (b! "LABEL", .label), (b! "REPORT", .report), (b! "MKWORKSPACE", .mkworkspace),
   (b! "MKACTIVITY", .mkactivity), (b! "BASELINE-CONTROL", .baselineControl),
   (b! "MERGE", .merge), (b! "INVALID", .invalid), (b! "HEAD", .head)]

/-- src/request.rs:99-131 `HtpMethod::new`. -/
def Method.new (method : Bytes) : Method := (methodNames.lookup method).getD .unknown

/-- src/transaction.rs:106-119 `enum HtpTransferCoding`. -/
inductive TransferCoding where
  | unknown | noBody | identity | chunked | invalid | error
  deriving Repr, DecidableEq

/-- src/transaction.rs:257-274 `enum HtpResponseProgress` and 282-299 `enum HtpRequestProgress`. -/
inductive Progress where
  | notStarted | line | headers | body | trailer | complete | error | gap
  deriving Repr, DecidableEq

/-- The derived order of the progress enumerations. -/
def Progress.rank : Progress → Nat
  | .notStarted => 0 | .line => 1 | .headers => 2 | .body => 3 | .trailer => 4 | .complete => 5
  | .error => 6 | .gap => 7

/-- The derived order of src/transaction.rs:325-339 `enum HtpProtocol`. -/
def Protocol.rank : Protocol → Nat
  | .error => 0 | .invalid => 1 | .unknown => 2 | .v0_9 => 3 | .v1_0 => 4 | .v1_1 => 5

/-- src/transaction.rs:134-140 `in_range`. -/
def ResponseNumber.inRange (r : ResponseNumber) (min max : Nat) : Bool :=
  match r with
  | .valid n => decide (min ≤ n ∧ n ≤ max)
  | _ => false

/-- src/transaction.rs:144-150 `eq_num`. -/
def ResponseNumber.eqNum (r : ResponseNumber) (num : Nat) : Bool :=
  match r with
  | .valid n => decide (n = num)
  | _ => false

/-- src/decompressors.rs:201-214 `enum HtpContentEncoding`. -/
inductive Encoding where
  | none | gzip | deflate | zlib | lzma | error
  deriving Repr, DecidableEq

/-- A chain of decompressors (src/decompressors.rs:218-227, 686-699): the encodings in the order in
which the layers were prepended, and all the data given to it so far. What the layers compute from it
is not modelled: it is an arbitrary function of this record. -/
structure Decompressor where
  layers : List Encoding
  fed : List Bytes := []
  deriving Repr, DecidableEq

/-- src/transaction.rs:342-571 `struct Transaction`, with the initial values of lines 647-710 `new`.
Not included: logger, configuration, user data, hooks. The `u64` lengths are natural numbers below
2^64 (every update reduces modulo 2^64 or reports the overflow). -/
structure Tx where
  requestIgnoredLines : Nat := 0
  requestLine : Option Bytes := none
  requestMethod : Option Bytes := none
  requestMethodNumber : Method := .unknown
  requestUri : Option Bytes := none
  requestProtocol : Option Bytes := none
  requestProtocolNumber : Protocol := .unknown
  isProtocol09 : Bool := false
  parsedUri : Option Uri := none
  parsedUriRaw : Option Uri := none
  completeNormalizedUri : Option Bytes := none
  partialNormalizedUri : Option Bytes := none
  requestMessageLen : Nat := 0
  requestEntityLen : Nat := 0
  requestHeaders : Headers := []
  requestTransferCoding : TransferCoding := .unknown
  requestContentEncoding : Encoding := .none
  requestContentEncodingProcessing : Encoding := .none
  requestContentType : Option Bytes := none
  requestDecompressor : Option Decompressor := none
  requestContentLength : Option Nat := none
  auth : Auth := {}
  requestHostname : Option Bytes := none
  requestPortNumber : Option Nat := none
  responseIgnoredLines : Nat := 0
  responseLine : Option Bytes := none
  responseProtocol : Option Bytes := none
  responseProtocolNumber : Protocol := .unknown
  responseStatus : Option Bytes := none
  responseStatusNumber : ResponseNumber := .unknown
  responseStatusExpectedNumber : Unwanted := .ignore
  responseMessage : Option Bytes := none
  seen100Continue : Bool := false
  responseHeaders : Headers := []
  isHttp2Upgrade : Bool := false
  responseMessageLen : Nat := 0
  responseEntityLen : Nat := 0
  responseContentLength : Option Nat := none
  responseTransferCoding : TransferCoding := .unknown
  responseContentEncoding : Encoding := .none
  responseContentEncodingProcessing : Encoding := .none
  responseContentType : Option Bytes := none
  responseDecompressor : Option Decompressor := none
  flags : Flags := 0
  requestProgress : Progress := .notStarted
  responseProgress : Progress := .notStarted
  index : Nat
  requestHeaderRepetitions : Nat := 0
  responseHeaderRepetitions : Nat := 0
  requestHeaderParser : HeaderParser := { side := .request }
  responseHeaderParser : HeaderParser := { side := .response }
  deriving Repr, DecidableEq

/-- The parts of the environment that are fixed during a connection: the configuration, whether
arithmetic overflow panics (debug) or wraps (release), and the abstract externals: IPv6 address
parsing, base64 decoding and the optional parameter processor (src/config.rs:66). -/
structure TxEnv where
  cfg : Config
  ovf : Bool
  ip : Bytes → Option Bool
  base64 : Bytes → Option Bytes
  parameterProcessor : Option (Bytes → Bytes → Except Status Unit)

namespace Tx

/-- src/transaction.rs:718-721 `is_started`. -/
def isStarted (t : Tx) : Bool :=
  !(t.requestProgress == .notStarted && t.responseProgress == .notStarted)

/-- src/transaction.rs:983-989 `is_complete`. -/
def isComplete (t : Tx) : Bool := t.requestProgress == .complete && t.responseProgress == .complete

/-- src/transaction.rs:752-755 `request_has_body`. -/
def requestHasBody (t : Tx) : Bool :=
  t.requestTransferCoding == .identity || t.requestTransferCoding == .chunked

/-- `self.flags.set(...)`. -/
def setFlags (t : Tx) (m : Flags) : Tx := { t with flags := setFlag t.flags m }

/-- src/transaction.rs:762-799: a Transfer-Encoding header is present. -/
def framingTe (t : Tx) (te : Header) (cl : Option Header) : Tx :=
  if (indexOfNocaseNozero te.value (b! "chunked")).isNone then
    ({ t with requestTransferCoding := .invalid }.setFlags Flag.REQUEST_INVALID_T_E).setFlags
      Flag.REQUEST_INVALID
  else
    let t := if t.requestProtocolNumber.rank < Protocol.v1_1.rank then
        (t.setFlags Flag.REQUEST_INVALID_T_E).setFlags Flag.REQUEST_SMUGGLING else t
    let t := { t with requestTransferCoding := .chunked }
    if cl.isSome then t.setFlags Flag.REQUEST_SMUGGLING else t

/-- src/transaction.rs:800-822: no Transfer-Encoding header, but a Content-Length header. -/
def framingCl (t : Tx) (cl : Header) : Tx :=
  let t := if isSet cl.flags Flag.FIELD_FOLDED then t.setFlags Flag.REQUEST_SMUGGLING else t
  let t := if isSet cl.flags Flag.FIELD_REPEATED then t.setFlags Flag.REQUEST_SMUGGLING else t
  let t := { t with requestContentLength := parseContentLength cl.value }
  if t.requestContentLength.isSome then { t with requestTransferCoding := .identity }
  else ({ t with requestTransferCoding := .invalid }.setFlags Flag.REQUEST_INVALID_C_L).setFlags
      Flag.REQUEST_INVALID

/-- src/transaction.rs:759-832: how the request body is packaged. -/
def framing (t : Tx) : Tx :=
  let cl := t.requestHeaders.getNocaseNozero (b! "content-length")
  let t := match t.requestHeaders.getNocaseNozero (b! "transfer-encoding") with
    | some te => t.framingTe te cl
    | none =>
      match cl with
      | some cl => t.framingCl cl
      | none => { t with requestTransferCoding := .noBody }
  if t.requestTransferCoding = .unknown then
    { t with requestTransferCoding := .invalid }.setFlags Flag.REQUEST_INVALID
  else t

/-- src/transaction.rs:999-1003 `get_parsed_uri_hostname`. -/
def parsedUriHostname (t : Tx) : Option Bytes := t.parsedUri.bind (·.hostname)

/-- src/transaction.rs:1006-1010 `get_parsed_uri_port_number`. -/
def parsedUriPortNumber (t : Tx) : Option Nat := t.parsedUri.bind (·.portNumber)

/-- src/transaction.rs:834-842: host name and port from the URI, when there. -/
def hostFromUri (t : Tx) : Tx :=
  let t := { t with requestHostname := t.parsedUriHostname.or t.requestHostname }
  { t with requestPortNumber := t.parsedUriPortNumber.or t.requestPortNumber }

/-- src/transaction.rs:850-877: a Host header that could be split. -/
def hostFromHeader (t : Tx) (hostname : Bytes) (port : Option (Bytes × Option Nat)) : Tx :=
  match t.requestHostname with
  | none =>
    let t := { t with requestHostname := some (lowerAll hostname) }
    match port with
    | some (_, p) => { t with requestPortNumber := p }
    | none => t
  | some host =>
    let t := if cmpNocase host hostname != .eq then t.setFlags Flag.HOST_AMBIGUOUS else t
    match port with
    | some (_, p) =>
      if t.requestPortNumber.isSome && t.requestPortNumber != p then t.setFlags Flag.HOST_AMBIGUOUS
      else t
    | none => t

/-- src/transaction.rs:843-889: the Host header. -/
def examineHost (ip : Bytes → Option Bool) (t : Tx) : Tx :=
  match t.requestHeaders.getNocaseNozero (b! "host") with
  | some header =>
    match parseHostport ip header.value with
    | .ok _ (hostname, port, valid) =>
      let t := if valid then t else t.setFlags Flag.HOSTH_INVALID
      t.hostFromHeader hostname port
    | _ => if t.requestHostname.isSome then t.setFlags Flag.HOST_AMBIGUOUS else t
  | none =>
    if t.requestProtocolNumber.rank ≥ Protocol.v1_1.rank then t.setFlags Flag.HOST_MISSING else t

/-- src/transaction.rs:894-905: authentication information; a rejected header sets a flag. -/
def examineAuth (e : TxEnv) (t : Tx) : Tx :=
  if e.cfg.parseRequestAuth then
    let header := (t.requestHeaders.getNocaseNozero (b! "authorization")).map (·.value)
    let (accepted, auth) := parseAuthorization e.base64 t.auth header
    let t := { t with auth }
    if accepted then t else t.setFlags Flag.AUTH_INVALID
  else t

/-- src/transaction.rs:890-906: content type, then authentication. -/
def examineRest (e : TxEnv) (t : Tx) : Except Err Unit × Tx :=
  match t.requestHeaders.getNocaseNozero (b! "content-type") with
  | some ct =>
    match parseContentType ct.value with
    | some type => (.ok (), { t with requestContentType := some type }.examineAuth e)
    | none => (.error (.status .error), t)
  | none => (.ok (), t.examineAuth e)

/-- src/transaction.rs:758-907 `process_request_headers`. -/
def processRequestHeaders (e : TxEnv) (t : Tx) : Except Err Unit × Tx :=
  ((t.framing.hostFromUri).examineHost e.ip).examineRest e

/-- src/transaction.rs:910-929 `validate_response_line`. -/
def validateResponseLine (t : Tx) : Tx :=
  let t := if t.responseProtocolNumber = .invalid then t.setFlags Flag.STATUS_LINE_INVALID else t
  if t.responseStatusNumber.inRange 100 999 then t
  else { t with responseStatusNumber := .invalid }.setFlags Flag.STATUS_LINE_INVALID

/-- src/transaction.rs:1013-1027 `normalize_parsed_uri`; `none` is a panic. -/
def normalizeParsedUri (e : TxEnv) (t : Tx) : Option Tx :=
  match t.parsedUriRaw with
  | none => some { t with parsedUri := some {} }
  | some raw =>
    let cfg := e.cfg.decoderCfg
    (Uri.normalizedDecoded e.ovf cfg t.flags raw.username).bind fun (flags, username) =>
    (Uri.normalizedDecoded e.ovf cfg flags raw.password).bind fun (flags, password) =>
    (raw.normalizedHostname e.ovf cfg flags).bind fun (flags, hostname) =>
    let (flags, portNumber) := raw.normalizedPort flags
    (Uri.normalizedDecoded e.ovf cfg flags raw.fragment).bind fun (flags, fragment) =>
    (raw.normalizedPath e.ovf cfg flags t.responseStatusExpectedNumber).bind fun (flags, status, path) =>
    some { t with
      parsedUri := some {
        scheme := raw.normalizedScheme, username, password, hostname, portNumber, path,
        query := raw.query, fragment }
      flags, responseStatusExpectedNumber := status }

/-- src/transaction.rs:934-944: the raw URI of the request line. -/
def splitRequestUri (e : TxEnv) (t : Tx) : Except Err Unit × Tx :=
  if t.requestMethodNumber = .connect then
    match t.requestUri with
    | none => (.error (.status .error), t)
    | some uri =>
      let (u, flags) := Uri.parseUriHostport e.ip {} t.flags uri
      (.ok (), { t with flags, parsedUriRaw := some u })
  else
    match t.requestUri with
    | none => (.ok (), { t with parsedUriRaw := some {} })
    | some uri => (.ok (), { t with parsedUriRaw := some (Uri.parseUri {} uri) })

/-- src/transaction.rs:951-971: the parameters of the query string, handed to the parameter
processor (they are not stored); the first failure is returned. -/
def queryParams (e : TxEnv) (t : Tx) : Except Err Unit :=
  match e.cfg.parseUrlencoded, t.parsedUri.bind (·.query) with
  | true, some query =>
    match Form.parseComplete e.ovf { cfg := e.cfg.decoderCfg } query with
    | none => .error .panic
    | some form =>
      match e.parameterProcessor with
      | none => .ok ()
      | some f =>
        match form.params.findSome? (fun p => match f p.1 p.2 with | .error s => some s | .ok _ => none) with
        | some s => .error (.status s)
        | none => .ok ()
  | _, _ => .ok ()

/-- src/transaction.rs:973-979: the host name of the URI is validated. -/
def checkUriHost (e : TxEnv) (t : Tx) : Tx :=
  match t.parsedUriHostname with
  | some h => if validateHostname e.ip h then t else t.setFlags Flag.HOSTU_INVALID
  | none => t

/-- src/transaction.rs:945-979: the second part of `parse_request_line`. -/
def finishRequestUri (e : TxEnv) (t : Tx) : Except Err Unit × Tx :=
  match if t.parsedUri.isNone then t.normalizeParsedUri e else some t with
  | none => (.error .panic, t)
  | some t =>
    match t.queryParams e with
    | .error err => (.error err, t)
    | .ok _ => (.ok (), t.checkUriHost e)

/-- src/transaction.rs:932-980 `parse_request_line`. -/
def parseRequestLine (e : TxEnv) (t : Tx) : Except Err Unit × Tx :=
  match t.splitRequestUri e with
  | (.error err, t) => (.error err, t)
  | (.ok _, t) => t.finishRequestUri e

end Tx

end Model

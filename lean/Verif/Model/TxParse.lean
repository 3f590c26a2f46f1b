/-
Model of the functions of src/request.rs and src/response.rs that fill in the current transaction
from a line or from parsed headers. Their only effect besides logging is on that transaction, so they
are functions from transactions to transactions here (the connection model looks the transaction up).
-/
import Verif.Model.Transaction

namespace Model

/-- src/request.rs:722-742, src/response.rs:897-918: an occurrence of `h` is added to the stored
header. -/
def Headers.merge (h : Header) (existing : Header) : Header :=
  let existing := { existing with flags := setFlag existing.flags HFlag.FIELD_REPEATED }
  if cmpNocase h.name (b! "Content-Length") == .eq then existing
  else { existing with value := existing.value ++ b! ", " ++ h.value }

/-- src/request.rs:704-758 `process_request_header` and src/response.rs:877-934
`process_response_header`: the header table and the repetition counter afterwards. -/
def Headers.store (hs : Headers) (reps : Nat) (h : Header) : Headers × Nat :=
  match hs.getNocase h.name with
  | some existing =>
    if !isSet existing.flags HFlag.FIELD_REPEATED then
      (hs.updateNocase (Headers.merge h) h.name, reps)
    else if reps < 64 then (hs.updateNocase (Headers.merge h) h.name, reps + 1)
    else (hs, reps)
  | none => (hs ++ [h], reps)

/-- src/request.rs:770-836: the flags raised for a request header name (each is set on the transaction
and on the header). -/
def requestFieldFlags (nameFlags : Flags) : Flags :=
  let f : Flags := 0
  let f := if isSet nameFlags HFlag.NAME_TRAILING_WHITESPACE then setFlag f Flag.FIELD_INVALID else f
  let f := if isSet nameFlags HFlag.NAME_LEADING_WHITESPACE then setFlag f Flag.INVALID_FOLDING else f
  let f := if isSet nameFlags HFlag.NAME_NON_TOKEN_CHARS then setFlag f Flag.FIELD_INVALID else f
  if isSet nameFlags HFlag.MISSING_COLON then setFlag f Flag.FIELD_UNPARSEABLE
  else if isSet nameFlags HFlag.NAME_EMPTY then setFlag f Flag.FIELD_INVALID
  else f

/-- src/response.rs:851, 823: flags set on a response header only, not on the transaction. -/
def responseExtraFlags (nameFlags : Flags) : Flags :=
  let f : Flags := 0
  let f := if isSet nameFlags HFlag.NAME_LEADING_WHITESPACE then setFlag f Flag.FIELD_INVALID else f
  if isSet nameFlags HFlag.MISSING_COLON then setFlag f Flag.FIELD_INVALID else f

namespace Tx

/-- src/request.rs:704-758 `process_request_header`. -/
def storeRequestHeader (t : Tx) (h : Header) : Tx :=
  let (hs, reps) := t.requestHeaders.store t.requestHeaderRepetitions h
  { t with requestHeaders := hs, requestHeaderRepetitions := reps }

/-- src/response.rs:877-934 `process_response_header`. -/
def storeResponseHeader (t : Tx) (h : Header) : Tx :=
  let (hs, reps) := t.responseHeaders.store t.responseHeaderRepetitions h
  { t with responseHeaders := hs, responseHeaderRepetitions := reps }

/-- src/request.rs:769-842: one parsed header of a request. -/
def acceptRequestHeader (t : Tx) (h : ParsedHeader) : Tx :=
  let f := requestFieldFlags h.name.flags
  (t.setFlags f).storeRequestHeader { name := h.name.text, value := h.value.text, flags := f }

/-- src/response.rs:789-868: one parsed header of a response. The flags set on the transaction are the
same as for a request. -/
def acceptResponseHeader (t : Tx) (h : ParsedHeader) : Tx :=
  let f := requestFieldFlags h.name.flags
  (t.setFlags f).storeResponseHeader
    { name := h.name.text, value := h.value.text, flags := setFlag f (responseExtraFlags h.name.flags) }

/-- src/request.rs:761-847 `parse_request_headers`, given the transaction: the unparsed rest, whether
the end of the headers was seen, and the transaction. -/
def parseRequestHeaders (t : Tx) (data : Bytes) : (Bytes × Bool) × Tx :=
  match t.requestHeaderParser.headers data with
  | .ok remaining (headers, eoh) => ((remaining, eoh), headers.foldl acceptRequestHeader t)
  | _ => ((data, false), t)

/-- src/response.rs:781-873 `parse_response_headers`, given the transaction. -/
def parseResponseHeaders (t : Tx) (data : Bytes) : (Bytes × Bool) × Tx :=
  match t.responseHeaderParser.headers data with
  | .ok remaining (headers, eoh) => ((remaining, eoh), headers.foldl acceptResponseHeader t)
  | _ => ((data, false), t)

/-- src/request.rs:859-865: for Apache the line ends at the first NUL. -/
def requestLineData (e : TxEnv) (line : Bytes) : Bytes :=
  if e.cfg.serverPersonality = .apache_2 then
    match takeUntilNull line with
    | .ok _ beforeNull => beforeNull
    | _ => line
  else line

/-- src/request.rs:880-907: leading white space `ls` and the method. -/
def readMethod (e : TxEnv) (t : Tx) (ls method : Bytes) : Tx :=
  let unwanted := e.cfg.requestlineLeadingWhitespaceUnwanted
  let t : Tx :=
    if ls ≠ [] ∧ unwanted ≠ .ignore then
      { t with responseStatusExpectedNumber := unwanted, requestMethod := some (ls ++ method) }
    else { t with requestMethod := some method }
  { t with requestMethodNumber := Method.new (t.requestMethod.getD []) }

/-- src/request.rs:933-956: the rest of the line is split into URI and protocol. -/
def splitUriProtocol (e : TxEnv) (remaining : Bytes) : Bytes × Bytes :=
  let remaining := trimmed remaining
  let rev := e.cfg.decoderCfg.allowSpaceUri
  let up := splitOnPredicate remaining rev true (· == 32)
  if up.1.length = remaining.length ∧ up.1.any isSpace then splitOnPredicate remaining rev true isSpace
  else up

/-- src/request.rs:958-989: URI and protocol. -/
def readUriProtocol (t : Tx) (up : Bytes × Bytes) : Tx :=
  let t := { t with requestUri := some up.1 }
  if up.2 = [] then { t with isProtocol09 := true, requestProtocolNumber := .v0_9 }
  else { t with requestProtocol := some up.2, requestProtocolNumber := parseProtocol up.2 }

/-- src/request.rs:850-992 `ConnectionParser::parse_request_line`, given the transaction. -/
def readRequestLine (e : TxEnv) (t : Tx) (line : Bytes) : Tx :=
  let t := { t with requestLine := some line }
  let parser := Nom.bind takeIsSpace fun ls => Nom.bind takeNotIsSpace fun method =>
    Nom.map takeIsSpace fun _ => (ls, method)
  match parser (requestLineData e line) with
  | .ok remaining (ls, method) =>
    let t := t.readMethod e ls method
    if remaining = [] then { t with isProtocol09 := true, requestProtocolNumber := .v0_9 }
    else t.readUriProtocol (splitUriProtocol e remaining)
  | _ => t

/-- src/response.rs:731-776 `parse_response_line`, given the transaction. -/
def readResponseLine (t : Tx) (line : Bytes) : Tx :=
  let t := { t with responseLine := some line, responseProtocolNumber := .invalid,
                    responseStatus := none, responseStatusNumber := .invalid,
                    responseMessage := none }
  let parser := Nom.bind takeIsSpaceOrNull fun _ => Nom.bind takeNotIsSpace fun protocol =>
    Nom.bind takeIsSpace fun ws1 => Nom.bind takeNotIsSpace fun code =>
    Nom.map takeAsciiWhitespace fun ws2 => (protocol, ws1, code, ws2)
  match parser line with
  | .ok message (protocol, ws1, code, ws2) =>
    if protocol = [] then t
    else
      let t := { t with responseProtocol := some protocol,
                        responseProtocolNumber := parseProtocol protocol }
      if ws1 = [] ∨ code = [] then t
      else
        let t := { t with responseStatus := some code, responseStatusNumber := parseStatus code }
        if ws2 = [] then t else { t with responseMessage := some (chomp message) }
  | _ => t

end Tx

end Model

/-
Model of the functions by which a C program reads transactions, header fields, URIs and the data given to
callbacks (src/c_api/{transaction,header,uri}.rs). A pointer that is handed out stands for the object it
points at. Not modelled: user data, `htp_tx_cfg`, the registration of callbacks on a transaction.
-/
import Verif.Model.CApi

namespace Model

/-! Texts -/

/-- src/c_api/transaction.rs: the functions that hand out a text of a transaction. -/
inductive TxText where
  | requestLine | requestMethod | requestUri | requestProtocol | requestContentType | requestHostname
  | responseLine | responseProtocol | responseStatus | responseMessage | responseContentType
  deriving DecidableEq, Repr

/-- src/c_api/transaction.rs:84-89 `htp_tx_request_line`, 99-105, 128-134, 143-149, 317-323, 364-370, 422-428,
437-443, 466-472, 512-518, 643-649. -/
def TxText.call (g : TxText) (tx : Ptr Tx) : Ptr Bytes :=
  tx.bind fun t =>
    match g with
    | .requestLine => t.requestLine
    | .requestMethod => t.requestMethod
    | .requestUri => t.requestUri
    | .requestProtocol => t.requestProtocol
    | .requestContentType => t.requestContentType
    | .requestHostname => t.requestHostname
    | .responseLine => t.responseLine
    | .responseProtocol => t.responseProtocol
    | .responseStatus => t.responseStatus
    | .responseMessage => t.responseMessage
    | .responseContentType => t.responseContentType

/-! Enumerations -/

/-- src/c_api/transaction.rs:114-118 `htp_tx_request_method_number`. -/
def txRequestMethodNumber (tx : Ptr Tx) : Method := (tx.map (·.requestMethodNumber)).getD .error

/-- src/c_api/transaction.rs:158-162 `htp_tx_request_protocol_number`. -/
def txRequestProtocolNumber (tx : Ptr Tx) : Protocol := (tx.map (·.requestProtocolNumber)).getD .error

/-- src/c_api/transaction.rs:285-291 `htp_tx_request_transfer_coding`. -/
def txRequestTransferCoding (tx : Ptr Tx) : TransferCoding := (tx.map (·.requestTransferCoding)).getD .error

/-- src/c_api/transaction.rs:301-307 `htp_tx_request_content_encoding`. -/
def txRequestContentEncoding (tx : Ptr Tx) : Encoding := (tx.map (·.requestContentEncoding)).getD .error

/-- src/c_api/transaction.rs:350-354 `htp_tx_request_auth_type`. -/
def txRequestAuthType (tx : Ptr Tx) : AuthType := (tx.map (·.auth.type)).getD .error

/-- src/c_api/transaction.rs:452-456 `htp_tx_response_protocol_number`. -/
def txResponseProtocolNumber (tx : Ptr Tx) : Protocol := (tx.map (·.responseProtocolNumber)).getD .error

/-- src/c_api/transaction.rs:671-675 `htp_tx_request_progress`. -/
def txRequestProgress (tx : Ptr Tx) : Progress := (tx.map (·.requestProgress)).getD .error

/-- src/c_api/transaction.rs:685-689 `htp_tx_response_progress`. -/
def txResponseProgress (tx : Ptr Tx) : Progress := (tx.map (·.responseProgress)).getD .error

/-! Header fields -/

/-- src/c_api/header.rs:18-30 `htp_headers_get`. -/
def headersGet : Ptr Headers → Ptr Bytes → Except Fault (Ptr Header)
  | some hs, some key =>
    match cStr (some key) with
    | .error f => .error f
    | .ok name => .ok (hs.getNocaseNozero name)
  | _, _ => .ok none

/-- src/c_api/header.rs:40-49 `htp_headers_flags`. -/
def headersFlags (hs : Ptr Headers) : Flags := (hs.map fun hs => hs.foldl (fun f h => f ||| h.flags) 0).getD 0

/-- src/c_api/header.rs:60-74 `htp_headers_get_index`. -/
def headersGetIndex (hs : Ptr Headers) (i : Nat) : Ptr Header := hs.bind fun hs => hs[i]?

/-- src/c_api/header.rs:84-89 `htp_headers_size`. -/
def headersSize (hs : Ptr Headers) : Int := (hs.map fun hs => signed hs.length).getD (-1)

/-- src/c_api/header.rs:99-104 `htp_header_name`, 114-119 `htp_header_name_ptr`. -/
def headerName (h : Ptr Header) : Ptr Bytes := h.map (·.name)

/-- src/c_api/header.rs:141-146 `htp_header_name_len`. -/
def headerNameLen (h : Ptr Header) : Int := (h.map fun h => signed h.name.length).getD (-1)

/-- src/c_api/header.rs:156-161 `htp_header_value`, 171-176 `htp_header_value_ptr`. -/
def headerValue (h : Ptr Header) : Ptr Bytes := h.map (·.value)

/-- src/c_api/header.rs:186-191 `htp_header_value_len`. -/
def headerValueLen (h : Ptr Header) : Int := (h.map fun h => signed h.value.length).getD (-1)

/-- src/c_api/header.rs:129-131 `htp_header_flags`. -/
def headerFlags (h : Ptr Header) : Flags := (h.map (·.flags)).getD 0

/-- src/c_api/transaction.rs:215-219 `htp_tx_request_headers`. -/
def txRequestHeaders (tx : Ptr Tx) : Ptr Headers := tx.map (·.requestHeaders)

/-- src/c_api/transaction.rs:527-531 `htp_tx_response_headers`. -/
def txResponseHeaders (tx : Ptr Tx) : Ptr Headers := tx.map (·.responseHeaders)

/-- src/c_api/transaction.rs:244-251 `htp_tx_request_header`. -/
def txRequestHeader (tx : Ptr Tx) (key : Ptr Bytes) : Except Fault (Ptr Header) :=
  match tx with
  | some t => headersGet (some t.requestHeaders) key
  | none => .ok none

/-- src/c_api/transaction.rs:556-563 `htp_tx_response_header`. -/
def txResponseHeader (tx : Ptr Tx) (key : Ptr Bytes) : Except Fault (Ptr Header) :=
  match tx with
  | some t => headersGet (some t.responseHeaders) key
  | none => .ok none

/-- src/c_api/transaction.rs:262-275 `htp_tx_request_header_index`. -/
def txRequestHeaderIndex (tx : Ptr Tx) (i : Nat) : Ptr Header := tx.bind fun t => t.requestHeaders[i]?

/-- src/c_api/transaction.rs:574-587 `htp_tx_response_header_index`. -/
def txResponseHeaderIndex (tx : Ptr Tx) (i : Nat) : Ptr Header := tx.bind fun t => t.responseHeaders[i]?

/-! URIs -/

/-- src/c_api/transaction.rs:200-205 `htp_tx_parsed_uri`. -/
def txParsedUri (tx : Ptr Tx) : Ptr Uri := tx.bind (·.parsedUri)

/-- src/c_api/uri.rs: the functions that hand out a part of a URI. -/
inductive UriText where
  | scheme | username | password | hostname | port | path | query | fragment
  deriving DecidableEq, Repr

/-- src/c_api/uri.rs:9-14, 22-27, 35-40, 48-53, 61-66, 87-92, 100-105, 113-118. -/
def UriText.call (g : UriText) (uri : Ptr Uri) : Ptr Bytes :=
  uri.bind fun u =>
    match g with
    | .scheme => u.scheme
    | .username => u.username
    | .password => u.password
    | .hostname => u.hostname
    | .port => u.port
    | .path => u.path
    | .query => u.query
    | .fragment => u.fragment

/-- src/c_api/uri.rs:74-79 `htp_uri_port_number`. -/
def uriPortNumber (uri : Ptr Uri) : Int := ((uri.bind (·.portNumber)).map Int.ofNat).getD (-1)

/-! The data given to a callback -/

/-- src/c_api/transaction.rs:736-740 `htp_tx_data_data`; src/transaction.rs:78-80 `Data::data`,
src/connection_parser.rs:99-104 `data_ptr`: the memory from the pointer to the end of the data. -/
def dataData (d : Ptr PData) : Ptr Bytes := d.bind (·.unconsumed)

/-- src/c_api/transaction.rs:748-752 `htp_tx_data_len`. -/
def dataLen (d : Ptr PData) : Int := (d.map fun d => signed d.len).getD (-1)

/-- src/c_api/transaction.rs:760-762 `htp_tx_data_is_empty`. -/
def dataIsEmpty (d : Ptr PData) : Bool := (d.map (·.isEmpty)).getD true

end Model

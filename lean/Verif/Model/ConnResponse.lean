/-
Model of the response state machine: src/response.rs and the `state_response_*` functions of
src/connection_parser.rs. Log messages and timestamps are left out everywhere.
-/
import Verif.Model.ConnRequest

namespace Model

open M

/-- src/response.rs:31-44 `response_receiver_send_data`. -/
def responseReceiverSendData (e : Env) : M Unit := do
  let s ← state
  modify fun s => { s with input := s.input.callbackData.2 }
  let _ ← responseTx e
  match s.resp.receiver with
  | some hook => emit e (.data hook s.txs.response (.ofBytes s.input.callbackData.1))
  | none => pure ()

/-- src/response.rs:48-55 `response_receiver_finalize_clear`. -/
def responseReceiverFinalizeClear (e : Env) : M Unit := do
  let s ← state
  match s.resp.receiver with
  | none => pure ()
  | some _ => do
    let rc ← attempt (responseReceiverSendData e)
    setResp fun h => { h with receiver := none }
    ofExcept (rc.mapError .status)

/-- src/response.rs:70-85: the receiver for raw header data. -/
def responseSetReceiver (e : Env) : M Unit := do
  let t ← responseTx e
  modify fun s => { s with input := s.input.resetCallbackStart }
  match t.responseProgress with
  | .headers => setResp fun h => { h with receiver := some .responseHeaderData }
  | .trailer => setResp fun h => { h with receiver := some .responseTrailerData }
  | _ => pure ()

/-- src/response.rs:65-95 `response_handle_state_change`. -/
def responseHandleStateChange (e : Env) : M Unit := do
  let s ← state
  if s.resp.statePrevious = s.resp.state then pure ()
  else do
    when (s.resp.state == .headers) (responseSetReceiver e)
    setResp fun h => { h with statePrevious := h.state }

/-- src/response.rs:99-123 `check_response_buffer_limit`. -/
def checkResponseBufferLimit (e : Env) (len : Nat) : M Unit := do
  let s ← state
  if len ≠ 0 ∧ s.resp.buffered + len > e.cfg.fieldLimit then fail .error else pure ()

/-- src/response.rs:1605-1610 `handle_response_absent_lf`. -/
def handleResponseAbsentLf (e : Env) : M Unit := do
  let s ← state
  checkResponseBufferLimit e s.input.len
  setResp fun h => { h with buf := h.buf ++ s.input.asSlice }
  responseConsume s.input.len
  fail .dataBuffer

/-- src/response.rs:1451-1462 `response_run_hook_body_data`. The end of the body (no data) is not
reported on this side. -/
def responseRunHookBodyData (e : Env) (d : PData) : M Unit :=
  if d.isEmpty then pure ()
  else do
    let _ ← responseTx e .panic
    let s ← state
    emit e (.data .responseBodyDataTx s.txs.response d)
    emit e (.data .responseBodyData s.txs.response d)

/-- src/response.rs:1253-1313 `response_decompressor_callback` (the timer is not modelled, see
`requestDecompressorCallback`). -/
def responseDecompressorCallback (e : Env) (out : Option Bytes) : M Unit := do
  let t ← responseTx e .panic
  putResponse { t with responseEntityLen := wrapAdd t.responseEntityLen (out.getD []).length }
  responseRunHookBodyData e { data := out }
  let t ← responseTx e .panic
  if bombAccepts e.cfg.compressionOptions t.responseMessageLen t.responseEntityLen then pure ()
  else fail .error

/-- src/response.rs:1035-1074: body data for a decompressor. -/
def responseDecompress (e : Env) (data : Option Bytes) : M Unit := do
  let t ← responseTx e .panic
  match t.responseDecompressor, data with
  | none, none => pure ()
  | none, some _ => fail .error
  | some d, none => do
    putResponse { t with responseDecompressor := none }
    let s ← state
    let _ ← runDecoding (responseDecompressorCallback e) (e.decoder s.trace s.txs.response d none)
    pure ()
  | some d, some data => do
    putResponse { t with responseDecompressor := none }
    let s ← state
    let ok ← runDecoding (responseDecompressorCallback e)
      (e.decoder s.trace s.txs.response d (some data))
    if ok then
      modifyResponse e fun t => { t with responseDecompressor := some { d with fed := d.fed ++ [data] } }
    else fail .error

/-- src/response.rs:1075-1083: body data without decompression. -/
def responsePlainBody (e : Env) (data : Option Bytes) : M Unit := do
  modifyResponse e fun t =>
    { t with responseEntityLen := wrapAdd t.responseEntityLen (data.getD []).length }
  responseRunHookBodyData e { data := data }

/-- src/response.rs:1022-1094 `response_body_data`; `none` is the end of the body. -/
def responseBodyData (e : Env) (data : Option Bytes) : M Unit := do
  let t ← responseTx e
  putResponse { t with responseMessageLen := wrapAdd t.responseMessageLen (data.getD []).length }
  match t.responseContentEncodingProcessing with
  | .none => responsePlainBody e data
  | .error => fail .error
  | _ => responseDecompress e data

/-- src/connection_parser.rs:814-853 `state_response_start`. -/
def stateResponseStart (e : Env) : M Unit := do
  let t ← responseTx e
  let s ← state
  if t.isProtocol09 then do
    putResponse { t with
      responseTransferCoding := .identity, responseContentEncodingProcessing := .none
      responseProgress := .body }
    setResp fun h => { h with state := .bodyIdentityStreamClose, bodyDataLeft := none }
    runTxHook e .responseStart s.txs.response
  else do
    putResponse { t with responseProgress := .line }
    setResp fun h => { h with state := .line }
    runTxHook e .responseStart s.txs.response

/-- src/connection_parser.rs:859-868 `state_response_headers`. -/
def stateResponseHeaders (e : Env) : M Unit := do
  responseReceiverFinalizeClear e
  let s ← state
  runTxHook e .responseHeaders s.txs.response
  let t ← responseTx e
  putResponse (t.initResponseDecompressors e.cfg)

/-- src/connection_parser.rs:874-886 `state_response_line`. -/
def stateResponseLine (e : Env) : M Unit := do
  let t ← responseTx e
  putResponse t.validateResponseLine
  runTxHook e .responseLine t.index

/-- src/connection_parser.rs:925-953 `request_parser_check_waiting`. -/
def requestParserCheckWaiting : M Unit := do
  let s ← state
  if s.resp.status = .dataOther ∧ s.txs.response = s.txs.request then fail .dataOther
  else if s.responseDataOtherAtTxEnd then do
    modify fun s => { s with responseDataOtherAtTxEnd := false }
    fail .dataOther
  else pure ()

/-- src/connection_parser.rs:899-912: the response is completed for the first time. -/
def completeResponse (e : Env) (t : Tx) : M Unit := do
  putResponse { t with responseProgress := .complete }
  when (t.responseTransferCoding != .noBody) do
    let _ ← attempt (responseBodyData e none)
    pure ()
  let s ← state
  runTxHook e .responseComplete s.txs.response
  responseReceiverFinalizeClear e

/-- src/connection_parser.rs:892-921 `state_response_complete`. -/
def stateResponseComplete (e : Env) : M Unit := do
  let t ← responseTx e
  when (t.responseProgress != .complete) (completeResponse e t)
  requestParserCheckWaiting
  let s ← state
  finalizeTx e s.txs.response
  responseNext e
  setResp fun h => { h with state := .idle }

/-- src/response.rs:129-151 `response_body_chunked_data_end`. -/
def responseBodyChunkedDataEnd (e : Env) : M Unit := do
  let t ← responseTx e
  let s ← state
  match takeTillLf s.input.asSlice with
  | .ok _ line => do
    responseConsume line.length
    putResponse { t with responseMessageLen := wrapAdd t.responseMessageLen line.length }
    setResp fun h => { h with state := .bodyChunkedLength }
  | _ => do
    putResponse { t with responseMessageLen := wrapAdd t.responseMessageLen s.input.len }
    responseConsume s.input.len
    fail .dataBuffer

/-- src/response.rs:157-179 `response_body_chunked_data`. -/
def responseBodyChunkedData (e : Env) : M Unit := do
  let s ← state
  let n := min s.input.len (s.resp.chunkedLength.getD 0)
  if n = 0 then fail .data
  else do
    let data ← inputPrefix n
    responseBodyData e (some data)
    responseConsume n
    setResp fun h => { h with chunkedLength := h.chunkedLength.map (· - n) }
    let s ← state
    if s.resp.chunkedLength = some 0 then setResp fun h => { h with state := .bodyChunkedDataEnd }
    else fail .data

/-- src/response.rs:210-257: a chunk-length line with something on it. -/
def responseChunkLine (e : Env) (line : Bytes) : M Unit := do
  let s ← state
  let data := s.resp.buf ++ line
  modifyResponse e fun t => { t with responseMessageLen := wrapAdd t.responseMessageLen data.length }
  match parseChunkedLength data with
  | .error => do
    responseUnconsume line.length
    setResp fun h => { h with state := .bodyIdentityStreamClose }
    modifyResponse e fun t => { t with responseTransferCoding := .identity }
  | .ok len _ => do
    setResp fun h => { h with chunkedLength := len }
    match len with
    | none => pure ()
    | some 0 => do
      setResp fun h => { h with state := .headers }
      modifyResponse e fun t => { t with responseProgress := .trailer }
    | some _ => setResp fun h => { h with state := .bodyChunkedData }

/-- src/response.rs:184-276 `response_body_chunked_length`: the loop over lines, given the unread data. -/
def responseChunkedLengthLoop (e : Env) (data : Bytes) : M Unit := do
  let t ← responseTx e
  match _h : takeTillLf data with
  | .ok remaining line => do
    responseConsume line.length
    let s ← state
    when (s.resp.buf ≠ []) (checkResponseBufferLimit e line.length)
    if isChunkedCtlLine line then do
      putResponse { t with responseMessageLen := wrapAdd t.responseMessageLen line.length }
      responseChunkedLengthLoop e remaining
    else responseChunkLine e line
  | _ =>
    if isValidChunkedLengthData data then handleResponseAbsentLf e
    else do
      putResponse { t with responseTransferCoding := .identity }
      setResp fun h => { h with state := .bodyIdentityStreamClose }
termination_by data.length
decreasing_by exact takeTillIncl_shorter _h

/-- src/response.rs:184-276 `response_body_chunked_length`. -/
def responseBodyChunkedLength (e : Env) : M Unit := do
  let s ← state
  responseChunkedLengthLoop e s.input.asSlice

/-- src/response.rs:293-314: `n` bytes of the body are handed out. -/
def responseIdentityData (e : Env) (n : Nat) : M Unit := do
  let s ← state
  if s.input.isGap then do
    let t ← responseTx e
    putResponse { t with responseMessageLen := wrapAdd t.responseMessageLen n }
    responseRunHookBodyData e (.ofGap n)
  else do
    let data ← inputPrefix n
    responseBodyData e (some data)

/-- src/response.rs:288-323: the body goes on. -/
def responseIdentityOpen (e : Env) : M Unit := do
  let s ← state
  match s.resp.bodyDataLeft with
  | none => fail .error
  | some left =>
    let n := min s.input.len left
    if n = 0 then fail .data
    else do
      responseIdentityData e n
      responseConsume n
      setResp fun h => { h with bodyDataLeft := some (left - n) }
      if left - n > 0 then fail .data
      else do
        setResp fun h => { h with state := .finalize }
        responseBodyData e none

/-- src/response.rs:282-321 `response_body_identity_cl_known`. -/
def responseBodyIdentityClKnown (e : Env) : M Unit := do
  let s ← state
  if s.resp.status = .closed then do
    setResp fun h => { h with state := .finalize }
    responseBodyData e s.input.unconsumed
  else responseIdentityOpen e

/-- src/response.rs:329-343: the data of a body that ends with the stream. -/
def responseStreamData (e : Env) : M Unit := do
  let s ← state
  if s.input.isGap then do
    let _ ← responseTx e
    responseRunHookBodyData e s.input
  else if s.input.isEmpty then pure ()
  else do
    responseBodyData e s.input.unconsumed
    responseConsume s.input.len

/-- src/response.rs:328-350 `response_body_identity_stream_close`. -/
def responseBodyIdentityStreamClose (e : Env) : M Unit := do
  responseStreamData e
  let s ← state
  if s.resp.status = .closed then setResp fun h => { h with state := .finalize } else fail .data

/-- Unblocks the request stream unless it has failed (src/response.rs:375-377, 381-383). -/
def unblockRequest : M Unit := setReq fun h => { h with status := if h.status = .error then .error else .data }

/-- src/response.rs:363-389: the response to a CONNECT request; returns whether a tunnel is established
(the function then ends). -/
def responseConnect (e : Env) : M Bool := do
  let t ← responseTx e
  if t.requestMethodNumber = .connect then
    if t.responseStatusNumber.inRange 200 299 then do
      setResp fun h => { h with state := .finalize }
      pure true
    else if t.responseStatusNumber.eqNum 407 then do
      unblockRequest
      pure false
    else do
      unblockRequest
      modify fun s => { s with responseDataOtherAtTxEnd := true }
      pure false
  else pure false

/-- src/response.rs:407-421: a 101 response without body headers; both streams become tunnels. -/
def responseSwitch : M Unit := modify fun s => { s with
  req := if s.req.status = .error then s.req else { s.req with status := .tunnel }
  resp := { s.resp with state := .finalize, status := .tunnel } }

/-- src/response.rs:436-461: an interim 100 response; the next response line is awaited. -/
def responseContinue (e : Env) : M Unit := do
  setResp fun h => { h with state := .line }
  modifyResponse e fun t => { t with responseHeaders := [], responseProgress := .line, seen100Continue := true }

/-- src/response.rs:467-476: the server refuses a request that announced its body with "Expect". -/
def responseExpect (e : Env) : M Unit := do
  let s ← state
  let t ← responseTx e .panic
  when (t.responseStatusNumber.inRange 400 499 && decide (s.req.contentLength.getD 0 > 0) &&
      s.req.bodyDataLeft == s.req.contentLength) <|
    match t.requestHeaders.getNocase (b! "expect") with
    | some expect => when (cmpSlice expect.value (b! "100-continue") == .eq)
        (setReq fun h => { h with state := .finalize })
    | none => pure ()

/-- What src/response.rs:363-476 decides before the body is looked at. -/
inductive Interim where
  | headersOnly   -- the function ends with `state_response_headers`
  | again         -- the function ends, the next response line is awaited
  | body          -- go on
  deriving DecidableEq, Repr

/-- src/response.rs:406-410: the "Upgrade" header mentions "h2c". -/
def Tx.upgradesToH2 (t : Tx) : Bool :=
  match t.responseHeaders.getNocaseNozero (b! "upgrade") with
  | some u => (indexOfNocaseNozero u.value (b! "h2c")).isSome
  | none => false

/-- src/response.rs:400-476: the status codes 101, 100 and 4xx. -/
def responseInterim (e : Env) (te cl : Option Header) : M Interim := do
  let t ← responseTx e .panic
  if t.responseStatusNumber.eqNum 101 then do
    when t.upgradesToH2 (putResponse { t with isHttp2Upgrade := true })
    if te.isNone && cl.isNone then do
      responseSwitch
      pure .headersOnly
    else pure .body
  else if t.responseStatusNumber.eqNum 100 && te.isNone then
    if (cl.bind (fun h => parseContentLength h.value)).getD 0 > 0 then pure .body
    else do
      responseContinue e
      pure .again
  else do
    responseExpect e
    pure .body

/-- src/response.rs:484-505: responses that have no body. -/
def responseNoBody (e : Env) (te cl : Option Header) : M Unit := do
  let t ← responseTx e .panic
  if t.requestMethodNumber = .head ||
      ((t.responseStatusNumber.inRange 100 199 || t.responseStatusNumber.eqNum 204 ||
        t.responseStatusNumber.eqNum 304) && te.isNone && cl.isNone) then do
    putResponse { t with responseTransferCoding := .noBody }
    setResp fun h => { h with state := .finalize }
  else pure ()

/-- src/response.rs:512-519: a content type without parameters. -/
def withoutParameters (value : Bytes) : Bytes :=
  match Nom.takeTillS (fun c => c == 59 || isSpace c) value with
  | .ok _ ct => ct
  | _ => value

/-- src/response.rs:507-535: the content type, in lower case, without parameters. -/
def Tx.responseType (t : Tx) : Option Bytes :=
  (t.responseHeaders.getNocaseNozero (b! "content-type")).map fun ct => lowerAll (withoutParameters ct.value)

/-- src/response.rs:543-577: a chunked body. -/
def responseChunked (e : Env) (cl : Option Header) : M Unit := do
  modifyResponse e fun t =>
    let t := { t with responseTransferCoding := .chunked }
    let t := if cl.isSome then t.setFlags Flag.REQUEST_SMUGGLING else t
    { t with responseProgress := .body }
  setResp fun h => { h with state := .bodyChunkedLength }

/-- src/response.rs:578-607: a body with a Content-Length. -/
def responseLength (e : Env) (cl : Header) : M Unit := do
  let len := parseContentLength cl.value
  modifyResponse e fun t =>
    let t := { t with responseTransferCoding := .identity }
    let t := if isSet cl.flags Flag.FIELD_REPEATED then t.setFlags Flag.REQUEST_SMUGGLING else t
    { t with responseContentLength := len }
  setResp fun h => { h with contentLength := len, bodyDataLeft := len }
  match len with
  | none => fail .error
  | some 0 => setResp fun h => { h with state := .finalize }
  | some _ => do
    setResp fun h => { h with state := .bodyIdentityClKnown }
    modifyResponse e fun t => { t with responseProgress := .body }

/-- src/response.rs:608-631: a body that ends with the stream. -/
def responseUntilClose (e : Env) (byteranges : Bool) : M Unit :=
  if byteranges then fail .error
  else do
    modifyResponse e fun t => { t with responseTransferCoding := .identity, responseProgress := .body }
    setResp fun h => { h with state := .bodyIdentityStreamClose, bodyDataLeft := none }

/-- src/response.rs:540-541: the Transfer-Encoding header mentions "chunked". -/
def announcesChunked : Option Header → Bool
  | some te => (indexOfNocaseNozero te.value (b! "chunked")).isSome
  | none => false

/-- src/response.rs:508-631: how the body is framed. -/
def responseFraming (e : Env) (te cl : Option Header) : M Unit := do
  let t ← responseTx e .panic
  putResponse { t with responseContentType := t.responseType.or t.responseContentType }
  if announcesChunked te then responseChunked e cl
  else
    match cl with
    | some cl => responseLength e cl
    | none => responseUntilClose e (indexOfNocase (t.responseType.getD []) (b! "multipart/byteranges")).isSome

/-- src/response.rs:479-634: the end of `response_body_determine`. -/
def responseBody (e : Env) (te cl : Option Header) : M Unit := do
  responseNoBody e te cl
  let s ← state
  when (s.resp.state ≠ .finalize) (responseFraming e te cl)
  stateResponseHeaders e

/-- src/response.rs:390-634: `response_body_determine` after the CONNECT case. -/
def responseDetermineRest (e : Env) : M Unit := do
  let t ← responseTx e .panic
  let cl := t.responseHeaders.getNocaseNozero (b! "content-length")
  let te := t.responseHeaders.getNocaseNozero (b! "transfer-encoding")
  let next ← responseInterim e te cl
  match next with
  | .headersOnly => stateResponseHeaders e
  | .again => pure ()
  | .body => responseBody e te cl

/-- src/response.rs:353-628 `response_body_determine`. -/
def responseBodyDetermine (e : Env) : M Unit := do
  let tunnel ← responseConnect e
  if tunnel then stateResponseHeaders e else responseDetermineRest e

/-- src/response.rs:695-706: does "HTTP" occur in the next bytes? (The last possible place is not looked
at.) The subtraction panics on a slice of fewer than four bytes. -/
def httpAhead (input : PData) : Option Bool :=
  if input.len ≥ 4 then
    let next := input.asSlice.take 16
    if next.length < 4 then none
    else some ((List.range (next.length - 4)).any fun i => ((next.drop i).take 4) = b! "HTTP")
  else some false

/-- src/response.rs:711-727: a line that does not look like a response line is body data. -/
def responseLineAsBody (e : Env) (line : Bytes) : M Unit := do
  modifyResponse e fun t => { t with responseContentEncodingProcessing := .none }
  responseBodyData e (some line)
  let s ← state
  when s.input.isEmpty do
    modifyResponse e fun t => { t with responseTransferCoding := .identity, responseProgress := .body }
    setResp fun h => { h with bodyDataLeft := none, state := .finalize }

/-- src/response.rs:682-727: a line that is not ignorable. -/
def responseLineRead (e : Env) (line : Bytes) : M Unit := do
  modifyResponse e fun t => { t with
    responseLine := none, responseProtocol := none, responseStatus := none, responseMessage := none }
  let s ← state
  if treatResponseLineAsBody line then
    match httpAhead s.input with
    | none => raise .panic
    | some true => modifyResponse e fun t => { t with responseIgnoredLines := t.responseIgnoredLines + 1 }
    | some false => responseLineAsBody e line
  else do
    modifyResponse e (·.readResponseLine line)
    stateResponseLine e
    setResp fun h => { h with state := .headers }
    modifyResponse e fun t => { t with responseProgress := .headers }

/-- src/response.rs:661-728 `response_line_complete`. -/
def responseLineComplete (e : Env) (line : Bytes) : M Unit := do
  checkResponseBufferLimit e line.length
  if line = [] then fail .data
  else do
    let t ← responseTx e
    if isLineIgnorable e.cfg.serverPersonality line then do
      setResp fun h => { h with state := if h.status = .closed then .finalize else h.state }
      putResponse { t with responseIgnoredLines := t.responseIgnoredLines + 1 }
    else responseLineRead e line

/-- src/response.rs:634-655 `response_line`. -/
def responseLine (e : Env) : M Unit := do
  let s ← state
  match takeTillEol s.input.asSlice with
  | .ok _ (line, _) => do
    setResp fun h => { h with buf := [] }
    responseConsume line.length
    responseLineComplete e (s.resp.buf ++ line)
  | _ =>
    if s.resp.status = .closed then do
      setResp fun h => { h with buf := [] }
      responseConsume s.input.len
      responseLineComplete e (s.resp.buf ++ s.input.asSlice)
    else handleResponseAbsentLf e

/-- src/response.rs:948-959, 984-994: the end of a trailer. -/
def responseTrailer (e : Env) : M Unit := do
  responseReceiverFinalizeClear e
  let s ← state
  runTxHook e .responseTrailer s.txs.response
  setResp fun h => { h with state := .finalize }

/-- src/response.rs:940-961: the stream was closed inside the headers. -/
def responseHeadersClosed (e : Env) : M Unit := do
  let t ← responseTx e
  putResponse { t with responseHeaderParser := { t.responseHeaderParser with complete := true } }
  let s ← state
  setResp fun h => { h with header := none }
  when s.resp.header.isSome do
    let _ ← withResponse e (·.parseResponseHeaders (s.resp.header.getD []))
    pure ()
  responseTrailer e

/-- src/response.rs:972-996: the end of the headers was seen. -/
def responseHeadersDone (e : Env) : M Unit := do
  let t ← responseTx e .panic
  if t.responseProgress = .headers then setResp fun h => { h with state := .bodyDetermine }
  else responseTrailer e

/-- src/response.rs:938-1005 `response_headers`. Where the code consumes nothing because the remainder is
longer than the input, the model consumes zero bytes. -/
def responseHeaders (e : Env) : M Unit := do
  let s ← state
  if s.resp.status = .closed then responseHeadersClosed e
  else do
    let data := s.resp.header.getD [] ++ s.input.asSlice
    setResp fun h => { h with header := none }
    let (remaining, eoh) ← withResponse e (·.parseResponseHeaders data)
    let eol := remaining.length == data.length && (remaining == b! "\r\n" || remaining == b! "\n")
    if eoh || eol then do
      responseConsume (if eol then s.input.len else s.input.len - remaining.length)
      responseHeadersDone e
    else do
      responseConsume s.input.len
      checkResponseBufferLimit e remaining.length
      setResp fun h => { h with header := some remaining }
      fail .dataBuffer

/-- src/response.rs:1376-1402: the line that follows a message. -/
def responseFinalizeLine (e : Env) (work : Bytes) : M Unit := do
  let s ← state
  when (s.resp.buf ≠ []) (checkResponseBufferLimit e work.length)
  setResp fun h => { h with buf := [] }
  let data := s.resp.buf ++ work
  if data = [] then stateResponseComplete e
  else if treatResponseLineAsBody data then responseBodyData e (some data)
  else do
    setResp fun h => { h with buf := s.resp.buf }
    responseUnconsume data.length
    stateResponseComplete e

/-- src/response.rs:1352-1401 `response_finalize`. -/
def responseFinalize (e : Env) : M Unit := do
  let s ← state
  if s.input.isGap then stateResponseComplete e
  else if s.resp.status = .closed then responseFinalizeLine e s.input.asSlice
  else
    match s.input.asSlice with
    | [] => stateResponseComplete e
    | c :: rest =>
      if c = 10 then do
        responseConsume (c :: rest).length
        responseFinalizeLine e (c :: rest)
      else
        match takeTillLf (c :: rest) with
        | .ok _ line => do
          responseConsume line.length
          responseFinalizeLine e line
        | _ => handleResponseAbsentLf e

/-- src/response.rs:1424-1442: a response for which no request was seen: an artificial one is made up. -/
def responseWithoutRequest (e : Env) (t : Tx) : M Unit := do
  putResponse { t with
    requestUri := some (b! "/libhtp::request_uri_not_seen")
    parsedUri := some { path := some (b! "/libhtp::request_uri_not_seen") }
    requestProgress := .complete }
  requestNext e

/-- src/response.rs:1408-1448 `response_idle`. -/
def responseIdle (e : Env) : M Unit := do
  let s ← state
  if s.input.isEmpty then fail .data
  else do
    let t ← responseTx e
    when (t.requestProgress == .notStarted) (responseWithoutRequest e t)
    setResp fun h => { h with contentLength := none, bodyDataLeft := none }
    stateResponseStart e

/-- src/connection_parser.rs:494-510 `handle_response_state`. -/
def handleResponseState (e : Env) : M Unit := do
  let s ← state
  match s.resp.state with
  | .idle => responseIdle e
  | .line => responseLine e
  | .headers => responseHeaders e
  | .bodyDetermine => responseBodyDetermine e
  | .bodyChunkedData => responseBodyChunkedData e
  | .bodyChunkedLength => responseBodyChunkedLength e
  | .bodyChunkedDataEnd => responseBodyChunkedDataEnd e
  | .finalize => responseFinalize e
  | .bodyIdentityStreamClose => responseBodyIdentityStreamClose e
  | .bodyIdentityClKnown => responseBodyIdentityClKnown e
  | .none | .protocol | .connectCheck | .connectProbeData | .connectWaitResponse | .bodyIdentity
  | .ignoreDataAfterHttp09 => fail .error

/-- Sets the status of the response stream and returns it: the ends of src/response.rs:1564-1601. -/
def responseReturn (st : StreamState) : M (Option StreamState) := do
  setResp fun h => { h with status := st }
  pure (some st)

/-- src/response.rs:1563-1601: what follows a step; `none` is to go on looping. -/
def responseAfterStep (e : Env) (rc : Except Status Unit) : M (Option StreamState) :=
  match rc with
  | .ok _ => pure none
  | .error .data | .error .dataBuffer => do
    let _ ← attempt (responseReceiverSendData e)
    responseReturn .data
  | .error .stop => responseReturn .stop
  | .error .dataOther => do
    let s ← state
    if s.input.isEmpty then responseReturn .data else responseReturn .dataOther
  | .error _ => responseReturn .error

/-- src/response.rs:1546-1549: the states in which a gap is accepted. -/
def responseGapState (st : State) : Bool :=
  st == .bodyIdentityClKnown || st == .bodyIdentityStreamClose || st == .finalize

/-- src/response.rs:1555-1562: the state changes after a successful step. -/
def responseStepTail (e : Env) (rc : Except Status Unit) : M (Option StreamState) := do
  let s ← state
  match rc with
  | .ok _ =>
    if s.resp.status = .tunnel then pure (some .tunnel)
    else do
      let rc ← attempt (responseHandleStateChange e)
      responseAfterStep e rc
  | .error st => responseAfterStep e (.error st)

/-- src/response.rs:1538-1602: one round of the loop; `none` is to go on looping. -/
def responseStep (e : Env) : M (Option StreamState) := do
  let s ← state
  if s.input.isGap && !responseGapState s.resp.state then pure (some .closed)
  else do
    let rc ← attempt (handleResponseState e)
    responseStepTail e rc

/-- src/response.rs:1528-1603: at most the given number of rounds; `none` if the loop has not ended by
then. -/
def responseLoop (e : Env) : Nat → M (Option StreamState)
  | 0 => pure none
  | n + 1 => do
    let r ← responseStep e
    match r with
    | some st => pure (some st)
    | none => responseLoop e n

/-- src/response.rs:1516-1534: the gap is noted; a gap before the first response is an error. The test
is on the index of the current request. -/
def responseNoteGap (e : Env) : M (Option StreamState) := do
  let t ← attempt (responseTx e)
  match t with
  | .error _ => pure (some .error)
  | .ok t => do
    let s ← state
    if s.txs.request = 0 ∧ t.responseProgress = .notStarted then do
      putResponse { t.setFlags Flag.RESPONSE_MISSING_BYTES with responseProgress := .gap }
      responseReturn .error
    else do
      putResponse (t.setFlags Flag.RESPONSE_MISSING_BYTES)
      pure none

/-- A number of rounds that is always enough (`C32`). -/
def responseRounds (s : Conn) : Nat := 16 * (s.input.len + 2 * s.resp.buf.length + 2)

/-- src/response.rs:1516-1534: what ends the call before the loop. -/
def responseEarly (e : Env) : M (Option StreamState) := do
  let s ← state
  if s.input.isGap then responseNoteGap e else pure none

/-- src/response.rs:1516-1602: the part of `response_data` after the tunnel check. -/
def responseProcess (e : Env) : M (Option StreamState) := do
  let s ← state
  let early ← responseEarly e
  match early with
  | some st => pure (some st)
  | none => responseLoop e (responseRounds s)

/-- src/response.rs:1465-1602 `response_data`. -/
def responseData (e : Env) (chunk : PData) : M (Option StreamState) := do
  modify fun s => { s with resp := { s.resp with bytesConsumed := 0 }, input := chunk }
  let s ← state
  if s.resp.status = .stop then pure (some .stop)
  else if s.resp.status = .error then pure (some .error)
  else if chunk.isEmpty ∧ s.resp.status ≠ .closed then pure (some .closed)
  else do
    modify fun s => { s with responseDataCounter := wrapAdd s.responseDataCounter chunk.len }
    if s.resp.status = .tunnel then pure (some .tunnel) else responseProcess e

end Model

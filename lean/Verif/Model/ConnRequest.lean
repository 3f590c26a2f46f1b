/-
Model of the request state machine: src/request.rs and the `state_request_*` functions of
src/connection_parser.rs. Log messages and timestamps are left out everywhere.
-/
import Verif.Model.Decompression

namespace Model

open M

/-- src/request.rs:135-148 `request_receiver_send_data`. -/
def requestReceiverSendData (e : Env) : M Unit := do
  let s ← state
  modify fun s => { s with input := s.input.callbackData.2 }
  let _ ← requestTx e
  match s.req.receiver with
  | some hook => emit e (.data hook s.txs.request (.ofBytes s.input.callbackData.1))
  | none => pure ()

/-- src/request.rs:158-165 `request_receiver_finalize_clear`. -/
def requestReceiverFinalizeClear (e : Env) : M Unit := do
  let s ← state
  match s.req.receiver with
  | none => pure ()
  | some _ => do
    let rc ← attempt (requestReceiverSendData e)
    setReq fun h => { h with receiver := none }
    ofExcept (rc.mapError .status)

/-- src/request.rs:177-189: the receiver for raw header data. -/
def requestSetReceiver (e : Env) : M Unit := do
  let t ← requestTx e .panic
  modify fun s => { s with input := s.input.resetCallbackStart }
  match t.requestProgress with
  | .headers => setReq fun h => { h with receiver := some .requestHeaderData }
  | .trailer => setReq fun h => { h with receiver := some .requestTrailerData }
  | _ => pure ()

/-- src/request.rs:169-195 `request_handle_state_change`. -/
def requestHandleStateChange (e : Env) : M Unit := do
  let s ← state
  if s.req.statePrevious = s.req.state then pure ()
  else do
    when (s.req.state == .headers) (requestSetReceiver e)
    setReq fun h => { h with statePrevious := h.state }

/-- The number of bytes a side buffers: src/request.rs:205-211, src/response.rs:103-109. The wrapping of
`usize` is not modelled. -/
def Half.buffered (h : Half) : Nat := h.buf.length + (h.header.getD []).length

/-- src/request.rs:200-224 `check_request_buffer_limit`. -/
def checkRequestBufferLimit (e : Env) (len : Nat) : M Unit := do
  let s ← state
  if len ≠ 0 ∧ s.req.buffered + len > e.cfg.fieldLimit then fail .error else pure ()

/-- src/request.rs:1438-1443 `handle_request_absent_lf`. -/
def handleRequestAbsentLf (e : Env) : M Unit := do
  let s ← state
  checkRequestBufferLimit e s.input.len
  setReq fun h => { h with buf := h.buf ++ s.input.asSlice }
  requestConsume s.input.len
  fail .dataBuffer

/-- src/request.rs:1446-1456 `request_run_hook_body_data`: the hooks of the transaction, then those of
the configuration. An empty piece of data is not reported, but the end of the body (no data) is. -/
def requestRunHookBodyData (e : Env) (d : PData) : M Unit := do
  let _ ← requestTx e .panic
  if d.unconsumed.isSome && d.isEmpty then pure ()
  else do
    let s ← state
    emit e (.data .requestBodyDataTx s.txs.request d)
    emit e (.data .requestBodyData s.txs.request d)

/-- src/request.rs:1272-1334 `request_decompressor_callback`. The timer (lines 1289-1303) is not
modelled: the decompressor is taken out of the transaction while it runs, so that code is not reached. -/
def requestDecompressorCallback (e : Env) (out : Option Bytes) : M Unit := do
  let t ← requestTx e .panic
  putRequest { t with requestEntityLen := wrapAdd t.requestEntityLen (out.getD []).length }
  requestRunHookBodyData e { data := out }
  let t ← requestTx e .panic
  if bombAccepts e.cfg.compressionOptions t.requestMessageLen t.requestEntityLen then pure ()
  else fail .error

/-- src/request.rs:1016-1052: body data for a decompressor. -/
def requestDecompress (e : Env) (data : Option Bytes) : M Unit := do
  let t ← requestTx e .panic
  match t.requestDecompressor, data with
  | none, none => pure ()
  | none, some _ => fail .error
  | some d, none => do
    putRequest { t with requestDecompressor := none }
    let s ← state
    let _ ← runDecoding (requestDecompressorCallback e) (e.decoder s.trace s.txs.request d none)
    pure ()
  | some d, some data => do
    putRequest { t with requestDecompressor := none }
    let s ← state
    let ok ← runDecoding (requestDecompressorCallback e) (e.decoder s.trace s.txs.request d (some data))
    if ok then
      modifyRequest e fun t => { t with requestDecompressor := some { d with fed := d.fed ++ [data] } }
    else fail .error

/-- src/request.rs:1053-1070: body data without decompression. The addition is unchecked: it panics on
overflow in a debug build. -/
def requestPlainBody (e : Env) (data : Option Bytes) : M Unit := do
  let t ← requestTx e .panic
  if e.ovf && decide (t.requestEntityLen + (data.getD []).length ≥ 2 ^ 64) then raise .panic
  else do
    putRequest { t with requestEntityLen := wrapAdd t.requestEntityLen (data.getD []).length }
    requestRunHookBodyData e { data := data }

/-- src/request.rs:1004-1081 `request_body_data`; `none` is the end of the body. -/
def requestBodyData (e : Env) (data : Option Bytes) : M Unit := do
  let t ← requestTx e
  putRequest { t with requestMessageLen := wrapAdd t.requestMessageLen (data.getD []).length }
  match t.requestContentEncodingProcessing with
  | .none => requestPlainBody e data
  | .error => fail .error
  | _ => requestDecompress e data

/-- src/connection_parser.rs:651-665 `state_request_start`. -/
def stateRequestStart (e : Env) : M Unit := do
  setReq fun h => { h with state := .line }
  let t ← requestTx e
  putRequest { t with requestProgress := .line }
  let s ← state
  runTxHook e .requestStart s.txs.request

/-- src/connection_parser.rs:684-692: the end of a trailer. -/
def stateRequestTrailer (e : Env) : M Unit := do
  let s ← state
  runTxHook e .requestTrailer s.txs.request
  setReq fun h => { h with state := .finalize }

/-- src/connection_parser.rs:694-711: the end of the headers. -/
def stateRequestHeadersDone (e : Env) : M Unit := do
  let s ← state
  when (s.requestChunkCount != s.requestChunkRequestIndex)
    (modifyRequest e (·.setFlags Flag.MULTI_PACKET_HEAD))
  onRequest e (·.processRequestHeaders e.toTxEnv)
  runTxHook e .requestHeaders s.txs.request
  let t ← requestTx e
  putRequest (t.initRequestDecompressors e.cfg)
  setReq fun h => { h with state := .connectCheck }

/-- src/connection_parser.rs:672-721 `state_request_headers`. -/
def stateRequestHeaders (e : Env) : M Unit := do
  requestReceiverFinalizeClear e
  let t ← requestTx e
  if t.requestProgress.rank > Progress.headers.rank then stateRequestTrailer e
  else if t.requestProgress.rank ≥ Progress.line.rank then stateRequestHeadersDone e
  else fail .error

/-- src/connection_parser.rs:745-751: the normalized URI is stored; `none` is a panic. -/
def Tx.storeNormalizedUri (e : TxEnv) (t : Tx) : Option Tx :=
  match t.parsedUri with
  | none => some t
  | some u => (u.generateNormalizedUri e.ovf e.cfg.decoderCfg).map fun (part, full) =>
      { t with partialNormalizedUri := part, completeNormalizedUri := full }

/-- src/connection_parser.rs:728-755 `state_request_line`. -/
def stateRequestLine (e : Env) : M Unit := do
  onRequest e (·.parseRequestLine e.toTxEnv)
  let s ← state
  runTxHook e .requestUriNormalize s.txs.request
  runTxHook e .requestLine s.txs.request
  let t ← requestTx e .panic
  match t.storeNormalizedUri e.toTxEnv with
  | none => raise .panic
  | some t => do
    putRequest t
    setReq fun h => { h with state := .protocol }

/-- src/connection_parser.rs:795-808 `finalize`. -/
def finalizeTx (e : Env) (index : Nat) : M Unit := do
  let s ← state
  match s.txs.get index with
  | some t => when t.isComplete (runTxHook e .transactionComplete index)
  | none => pure ()

/-- src/connection_parser.rs:767-781: the request is completed for the first time. -/
def completeRequest (e : Env) (t : Tx) : M Unit := do
  when t.requestHasBody (requestBodyData e none)
  modifyRequest e fun t => { t with requestProgress := .complete }
  let s ← state
  runTxHook e .requestComplete s.txs.request
  requestReceiverFinalizeClear e

/-- src/connection_parser.rs:761-792 `state_request_complete`. -/
def stateRequestComplete (e : Env) : M Unit := do
  let t ← requestTx e
  when (t.requestProgress != .complete) (completeRequest e t)
  let t ← requestTx e .panic
  setReq fun h => { h with state := if t.isProtocol09 then .ignoreDataAfterHttp09 else .idle }
  let s ← state
  finalizeTx e s.txs.request
  requestNext e

/-- src/request.rs:232-251 `request_connect_check`. -/
def requestConnectCheck (e : Env) : M Unit := do
  let t ← requestTx e
  if t.requestMethodNumber = .connect then do
    setReq fun h => { h with state := .connectWaitResponse, status := .dataOther }
    fail .dataOther
  else setReq fun h => { h with state := .bodyDetermine }

/-- The first word of a line: src/request.rs:275-276, 1375-1377 (`take_is_space`, `take_not_is_space`). -/
def firstWord (data : Bytes) : Bytes := (data.dropWhile isSpace).takeWhile (fun c => !isSpace c)

/-- src/request.rs:258-285 `request_connect_probe_data`. -/
def requestConnectProbeData (e : Env) : M Unit := do
  let s ← state
  match takeTillLfNull s.input.asSlice with
  | .ok _ data => do
    when (s.req.buf ≠ []) (checkRequestBufferLimit e data.length)
    if Method.new (firstWord (s.req.buf ++ data)) = .unknown then
      modify fun s => { s with
        req := { s.req with status := .tunnel }, resp := { s.resp with status := .tunnel } }
    else stateRequestComplete e
  | _ => handleRequestAbsentLf e

/-- src/request.rs:293-317 `request_connect_wait_response`. -/
def requestConnectWaitResponse (e : Env) : M Unit := do
  let t ← requestTx e
  if t.responseProgress.rank ≤ Progress.line.rank then fail .dataOther
  else if t.responseStatusNumber.inRange 200 299 then
    setReq fun h => { h with state := .connectProbeData }
  else setReq fun h => { h with state := .finalize }

/-- src/request.rs:323-342 `request_body_chunked_data_end`. -/
def requestBodyChunkedDataEnd (e : Env) : M Unit := do
  let t ← requestTx e
  let s ← state
  match takeTillLf s.input.asSlice with
  | .ok _ line => do
    putRequest { t with requestMessageLen := wrapAdd t.requestMessageLen line.length }
    requestConsume line.length
    setReq fun h => { h with state := .bodyChunkedLength }
  | _ => do
    putRequest { t with requestMessageLen := wrapAdd t.requestMessageLen s.input.len }
    handleRequestAbsentLf e

/-- src/request.rs:348-373 `request_body_chunked_data`. -/
def requestBodyChunkedData (e : Env) : M Unit := do
  let s ← state
  let n := min s.input.len (s.req.chunkedLength.getD 0)
  if n = 0 then fail .data
  else do
    let data ← inputPrefix n
    requestBodyData e (some data)
    requestConsume n
    setReq fun h => { h with chunkedLength := h.chunkedLength.map (· - n) }
    let s ← state
    if s.req.chunkedLength = some 0 then setReq fun h => { h with state := .bodyChunkedDataEnd }
    else fail .data

/-- src/request.rs:404-436: a chunk-length line that is not empty. -/
def requestChunkLine (e : Env) (line : Bytes) : M Unit := do
  let s ← state
  let data := s.req.buf ++ line
  modifyRequest e fun t => { t with requestMessageLen := wrapAdd t.requestMessageLen data.length }
  match parseChunkedLength data with
  | .error => fail .error
  | .ok len _ => do
    setReq fun h => { h with chunkedLength := len }
    match len with
    | none => fail .error
    | some 0 => do
      setReq fun h => { h with state := .headers }
      modifyRequest e fun t => { t with requestProgress := .trailer }
    | some _ => setReq fun h => { h with state := .bodyChunkedData }

/-- The line read is not empty: the loop below ends. -/
theorem takeTillIncl_shorter {p : UInt8 → Bool} {data rest line : Bytes}
    (h : takeTillIncl p data = .ok rest line) : rest.length < data.length := by
  unfold takeTillIncl at h
  cases data with
  | nil => simp [Nom.takeTillS, Nom.takeWhileS] at h
  | cons c cs =>
    generalize Nom.takeTillS p (c :: cs) = r at h
    cases r with
    | ok _ line =>
      simp only [IRes.ok.injEq] at h
      rw [← h.1]
      simp only [List.length_drop, List.length_cons]
      omega
    | err => simp at h
    | incomplete => simp at h

/-- src/request.rs:378-451 `request_body_chunked_length`: the loop over lines, given the unread data. -/
def requestChunkedLengthLoop (e : Env) (data : Bytes) : M Unit :=
  match _h : takeTillLf data with
  | .ok remaining line => do
    requestConsume line.length
    let s ← state
    when (s.req.buf ≠ []) (checkRequestBufferLimit e line.length)
    let t ← requestTx e
    if line = [10] then do
      putRequest { t with requestMessageLen := wrapAdd t.requestMessageLen line.length }
      requestChunkedLengthLoop e remaining
    else requestChunkLine e line
  | _ => if isValidChunkedLengthData data then handleRequestAbsentLf e else fail .error
termination_by data.length
decreasing_by exact takeTillIncl_shorter _h

/-- src/request.rs:378-451 `request_body_chunked_length`. -/
def requestBodyChunkedLength (e : Env) : M Unit := do
  let s ← state
  requestChunkedLengthLoop e s.input.asSlice

/-- src/request.rs:466-487: `n` bytes of the body are handed out. -/
def requestIdentityData (e : Env) (n : Nat) : M Unit := do
  let s ← state
  if s.input.isGap then do
    let t ← requestTx e
    putRequest { t with requestMessageLen := wrapAdd t.requestMessageLen n }
    requestRunHookBodyData e (.ofGap n)
  else do
    let data ← inputPrefix n
    requestBodyData e (some data)

/-- src/request.rs:457-497 `request_body_identity`. -/
def requestBodyIdentity (e : Env) : M Unit := do
  let s ← state
  match s.req.bodyDataLeft with
  | none => fail .error
  | some left =>
    let n := min s.input.len left
    if n = 0 then fail .data
    else do
      requestIdentityData e n
      requestConsume n
      setReq fun h => { h with bodyDataLeft := some (left - n) }
      if left - n > 0 then fail .data
      else do
        setReq fun h => { h with state := .finalize }
        requestBodyData e none

/-- src/request.rs:503-540 `request_body_determine`. -/
def requestBodyDetermine (e : Env) : M Unit := do
  let t ← requestTx e
  match t.requestTransferCoding with
  | .chunked => do
    putRequest { t with requestProgress := .body }
    setReq fun h => { h with state := .bodyChunkedLength }
  | .identity =>
    if t.requestContentLength.getD 0 > 0 then do
      putRequest { t with requestProgress := .body }
      setReq fun h => { h with
        contentLength := t.requestContentLength, bodyDataLeft := t.requestContentLength
        state := .bodyIdentity }
    else setReq fun h => { h with
        contentLength := t.requestContentLength, bodyDataLeft := t.requestContentLength
        state := .finalize }
  | .noBody => setReq fun h => { h with state := .finalize }
  | _ => fail .error

/-- src/request.rs:547-563: the stream was closed inside the headers. -/
def requestHeadersClosed (e : Env) : M Unit := do
  let t ← requestTx e
  putRequest { t with
    requestHeaderParser := { t.requestHeaderParser with complete := true }, requestProgress := .trailer }
  let s ← state
  setReq fun h => { h with header := none }
  when s.req.header.isSome do
    let _ ← withRequest e (·.parseRequestHeaders (s.req.header.getD []))
    pure ()
  setReq fun h => { h with buf := [] }
  stateRequestHeaders e

/-- src/request.rs:585-592: how much of the chunk is consumed at the end of the headers. -/
def requestHeadersConsumed (dataLen : Nat) (remaining : Bytes) (eol : Bool) : Nat :=
  if remaining.length < dataLen then dataLen - remaining.length
  else if eol then
    if (b! "\r\n").isPrefixOf remaining then min dataLen 2
    else if (b! "\n").isPrefixOf remaining then min dataLen 1
    else 0
  else 0

/-- src/request.rs:545-604 `request_headers`. -/
def requestHeaders (e : Env) : M Unit := do
  let s ← state
  if s.req.status = .closed then requestHeadersClosed e
  else do
    let data := s.input.asSlice
    let data2 := s.req.header.getD [] ++ data
    setReq fun h => { h with header := none }
    let (remaining, eoh) ← withRequest e (·.parseRequestHeaders data2)
    let eol := remaining.length == data2.length &&
      ((b! "\r\n").isPrefixOf remaining || (b! "\n").isPrefixOf remaining)
    if eoh || eol then do
      requestConsume (requestHeadersConsumed data.length remaining eol)
      stateRequestHeaders e
    else do
      requestConsume data.length
      checkRequestBufferLimit e remaining.length
      setReq fun h => { h with header := some remaining }
      fail .dataBuffer

/-- src/request.rs:28 `HTTP09_MAX_JUNK_LEN`. -/
def http09MaxJunkLen : Nat := 16

/-- src/request.rs:609-642 `request_protocol`. -/
def requestProtocol (e : Env) : M Unit := do
  let t ← requestTx e
  let s ← state
  let data := s.input.asSlice
  if !t.isProtocol09 then do
    putRequest { t with requestProgress := .headers }
    setReq fun h => { h with state := .headers }
  else if data.dropWhile isSpace ≠ [] ∨ (data.takeWhile isSpace).length > http09MaxJunkLen then do
    putRequest { t with isProtocol09 := false, requestProgress := .headers }
    setReq fun h => { h with state := .headers }
  else setReq fun h => { h with state := .finalize }

/-- src/request.rs:648-673 `request_line_complete`. -/
def requestLineComplete (e : Env) (line : Bytes) : M Unit := do
  checkRequestBufferLimit e line.length
  if line = [] then fail .data
  else do
    let t ← requestTx e
    if isLineIgnorable e.cfg.serverPersonality line then
      putRequest { t with requestIgnoredLines := t.requestIgnoredLines + 1 }
    else do
      putRequest (t.readRequestLine e.toTxEnv (chomp line))
      stateRequestLine e

/-- src/request.rs:679-700 `request_line`. -/
def requestLine (e : Env) : M Unit := do
  let s ← state
  match takeTillLf s.input.asSlice with
  | .ok _ line => do
    setReq fun h => { h with buf := [] }
    requestConsume line.length
    requestLineComplete e (s.req.buf ++ line)
  | _ =>
    if s.req.status = .closed then do
      setReq fun h => { h with buf := [] }
      requestConsume s.input.len
      requestLineComplete e (s.req.buf ++ s.input.asSlice)
    else handleRequestAbsentLf e

/-- src/request.rs:1363-1402: the line that follows a message. -/
def requestFinalizeLine (e : Env) (work : Bytes) : M Unit := do
  let s ← state
  when (s.req.buf ≠ []) (checkRequestBufferLimit e work.length)
  setReq fun h => { h with buf := [] }
  let data := s.req.buf ++ work
  if data = [] then stateRequestComplete e
  else if firstWord data = [] then requestBodyData e (some data)
  else if Method.new (firstWord data) = .unknown then do
    setReq fun h => { h with
      bodyDataLeft := if h.bodyDataLeft.getD 0 = 0 then h.bodyDataLeft else some 1 }
    requestBodyData e (some data)
  else do
    setReq fun h => { h with bodyDataLeft := none, buf := s.req.buf }
    requestUnconsume data.length
    stateRequestComplete e

/-- src/request.rs:1340-1402 `request_finalize`. -/
def requestFinalize (e : Env) : M Unit := do
  let s ← state
  if s.input.isGap then stateRequestComplete e
  else if s.req.status = .closed then requestFinalizeLine e s.input.asSlice
  else if s.input.asSlice = [] then stateRequestComplete e
  else
    match takeTillLf s.input.asSlice with
    | .ok _ line => do
      requestConsume line.length
      requestFinalizeLine e line
    | _ => handleRequestAbsentLf e

/-- src/request.rs:1405-1411 `request_ignore_data_after_http_0_9`. -/
def requestIgnoreDataAfterHttp09 : M Unit := do
  let s ← state
  when (!s.input.isEmpty)
    (modify fun s => { s with connFlags := setFlag s.connFlags ConnFlag.HTTP_0_9_EXTRA })
  requestConsume s.input.len
  fail .data

/-- src/connection_parser.rs:545-549 `request_reset`. -/
def requestReset : M Unit := modify fun s =>
  { s with
    req := { s.req with contentLength := none, bodyDataLeft := none }
    requestChunkRequestIndex := s.requestChunkCount }

/-- src/request.rs:1417-1434 `request_idle`. -/
def requestIdle (e : Env) : M Unit := do
  let s ← state
  if s.input.isEmpty ∧ (s.req.status ≠ .closed ∨ s.req.buf = []) then fail .data
  else do
    requestReset
    let _ ← attempt (stateRequestStart e)
    pure ()

/-- src/connection_parser.rs:471-491 `handle_request_state`. -/
def handleRequestState (e : Env) : M Unit := do
  let s ← state
  match s.req.state with
  | .idle => requestIdle e
  | .ignoreDataAfterHttp09 => requestIgnoreDataAfterHttp09
  | .line => requestLine e
  | .protocol => requestProtocol e
  | .headers => requestHeaders e
  | .connectWaitResponse => requestConnectWaitResponse e
  | .connectCheck => requestConnectCheck e
  | .connectProbeData => requestConnectProbeData e
  | .bodyDetermine => requestBodyDetermine e
  | .bodyChunkedData => requestBodyChunkedData e
  | .bodyChunkedLength => requestBodyChunkedLength e
  | .bodyChunkedDataEnd => requestBodyChunkedDataEnd e
  | .bodyIdentity => requestBodyIdentity e
  | .finalize => requestFinalize e
  | .none | .bodyIdentityStreamClose | .bodyIdentityClKnown => fail .error

/-- Sets the status of the request stream and returns it: the ends of src/request.rs:1549-1597. -/
def requestReturn (st : StreamState) : M (Option StreamState) := do
  setReq fun h => { h with status := st }
  pure (some st)

/-- src/request.rs:1558-1598: what follows a step; `none` is to go on looping. -/
def requestAfterStep (e : Env) (rc : Except Status Unit) : M (Option StreamState) :=
  match rc with
  | .ok _ => pure none
  | .error .data | .error .dataBuffer => do
    let _ ← attempt (requestReceiverSendData e)
    requestReturn .data
  | .error .dataOther => do
    let s ← state
    if s.input.isEmpty then requestReturn .data else requestReturn .dataOther
  | .error .stop => requestReturn .stop
  | .error _ => requestReturn .error

/-- src/request.rs:1544-1547: the states in which a gap is accepted. -/
def requestGapState (st : State) : Bool :=
  st == .bodyIdentity || st == .ignoreDataAfterHttp09 || st == .finalize

/-- src/request.rs:1550-1557: the state changes after a successful step. -/
def requestStepTail (e : Env) (rc : Except Status Unit) : M (Option StreamState) := do
  let s ← state
  match rc with
  | .ok _ =>
    if s.req.status = .tunnel then pure (some .tunnel)
    else do
      let rc ← attempt (requestHandleStateChange e)
      requestAfterStep e rc
  | .error st => requestAfterStep e (.error st)

/-- src/request.rs:1531-1598: one round of the loop; `none` is to go on looping. -/
def requestStep (e : Env) : M (Option StreamState) := do
  let s ← state
  if s.input.isGap && !requestGapState s.req.state then pure (some .closed)
  else do
    let rc ← attempt (handleRequestState e)
    requestStepTail e rc

/-- src/request.rs:1522-1599: at most the given number of rounds; `none` if the loop has not ended by
then. -/
def requestLoop (e : Env) : Nat → M (Option StreamState)
  | 0 => pure none
  | n + 1 => do
    let r ← requestStep e
    match r with
    | some st => pure (some st)
    | none => requestLoop e n

/-- src/request.rs:1515-1533: the gap is noted; a gap before the first request is an error, which is
also the answer when there is no room for a transaction. -/
def requestNoteGap (e : Env) : M (Option StreamState) := do
  let t ← attempt (requestTx e)
  match t with
  | .error _ => pure (some .error)
  | .ok t => do
    let s ← state
    if s.txs.request = 0 ∧ t.requestProgress = .notStarted then do
      putRequest { t.setFlags Flag.REQUEST_MISSING_BYTES with requestProgress := .gap }
      requestReturn .error
    else do
      putRequest (t.setFlags Flag.REQUEST_MISSING_BYTES)
      pure none

/-- A number of rounds that is always enough (`C32`). -/
def requestRounds (s : Conn) : Nat := 16 * (s.input.len + 2 * s.req.buf.length + 2)

/-- What ends the call before the loop (a gap before the first request). -/
def requestEarly (e : Env) : M (Option StreamState) := do
  let s ← state
  if s.input.isGap then requestNoteGap e else pure none

/-- src/request.rs:1497-1599: the part of `request_data` after the tunnel check. -/
def requestProcess (e : Env) : M (Option StreamState) := do
  modify fun s => { s with
    resp := if s.resp.status = .dataOther then { s.resp with status := .data } else s.resp }
  let s ← state
  let early ← requestEarly e
  match early with
  | some st => pure (some st)
  | none => requestLoop e (requestRounds s)

/-- src/request.rs:1459-1600 `request_data`. The result is the returned stream state; `none` would be a
loop that has not ended. -/
def requestData (e : Env) (chunk : PData) : M (Option StreamState) := do
  modify fun s => { s with req := { s.req with bytesConsumed := 0 }, input := chunk }
  let s ← state
  if s.req.status = .stop then pure (some .stop)
  else if s.req.status = .error then pure (some .error)
  else if chunk.isEmpty ∧ s.req.status ≠ .closed then pure (some .closed)
  else do
    modify fun s => { s with
      requestChunkCount := s.requestChunkCount + 1
      requestDataCounter := wrapAdd s.requestDataCounter chunk.len }
    if s.req.status = .tunnel then pure (some .tunnel) else requestProcess e

end Model

/-
Model of the connection parser (src/connection_parser.rs): its state, the effects available to the
request and response state machines, and the calls to user callbacks and decompressors.
-/
import Verif.Model.Transactions
import Verif.Model.TxParse
import Verif.Model.ParserData

namespace Model

/-- src/connection_parser.rs:19-56 `enum State`. -/
inductive State where
  | none | idle | line | headers | bodyChunkedDataEnd | bodyChunkedData | bodyChunkedLength
  | bodyDetermine | finalize | protocol | connectCheck | connectProbeData | connectWaitResponse
  | bodyIdentity | ignoreDataAfterHttp09 | bodyIdentityStreamClose | bodyIdentityClKnown
  deriving Repr, DecidableEq

/-- src/connection_parser.rs:62-80 `enum HtpStreamState`. -/
inductive StreamState where
  | new | open | closed | error | tunnel | dataOther | stop | data
  deriving Repr, DecidableEq

/-- The hooks of src/config.rs that take a transaction. -/
inductive TxHook where
  | requestStart | requestUriNormalize | requestLine | requestHeaders | requestTrailer
  | requestComplete | responseStart | responseLine | responseHeaders | responseTrailer
  | responseComplete | transactionComplete
  deriving Repr, DecidableEq

/-- The hooks of src/config.rs and src/transaction.rs that take data. The two `…BodyDataTx` are the hooks of
the transaction itself (src/transaction.rs:419, 531). -/
inductive DataHook where
  | requestHeaderData | requestTrailerData | requestBodyDataTx | requestBodyData
  | responseHeaderData | responseTrailerData | responseBodyDataTx | responseBodyData
  deriving Repr, DecidableEq

/-- One run of a hook: which hook, for the transaction with which index, and with what data. -/
inductive Event where
  | tx (hook : TxHook) (index : Nat)
  | data (hook : DataHook) (index : Nat) (d : PData)
  deriving Repr, DecidableEq

/-- One side of src/connection_parser.rs:275-356 `struct ConnectionParser` (the fields named
`request_*` or `response_*`), with the initial values of lines 371-407 `new`. Timestamps are not
modelled. -/
structure Half where
  status : StreamState := .new
  bytesConsumed : Nat := 0
  buf : Bytes := []
  header : Option Bytes := none
  contentLength : Option Nat := none
  bodyDataLeft : Option Nat := none
  chunkedLength : Option Nat := none
  state : State := .idle
  statePrevious : State := .none
  receiver : Option DataHook := none
  deriving Repr, DecidableEq

/-- src/connection_parser.rs:275-356 `struct ConnectionParser` together with the counters and flags of
src/connection.rs:12-57 `struct Connection`, with the initial values. `input` is the chunk being
processed (an argument of the Rust functions); `trace` records every hook run (it does not exist in
the program: it is what the user observes). Logger, user data, addresses and times are not modelled. -/
structure Conn where
  req : Half := {}
  resp : Half := {}
  responseDataOtherAtTxEnd : Bool := false
  requestChunkCount : Nat := 0
  requestChunkRequestIndex : Nat := 0
  connFlags : Flags := 0
  requestDataCounter : Nat := 0
  responseDataCounter : Nat := 0
  txs : Txs := {}
  input : PData := {}
  trace : List Event := []
  deriving Repr, DecidableEq

/-- src/connection.rs:14-21 `ConnectionFlags`. -/
def ConnFlag.PIPELINED : Flags := 0x01
def ConnFlag.HTTP_0_9_EXTRA : Flags := 0x02

/-- `u64::wrapping_add`. -/
def wrapAdd (a b : Nat) : Nat := (a + b) % 2 ^ 64

/-- What a decompressor does with the data it is given: it calls its output callback any number of
times (`none` is the end signal), sees each time whether the callback accepted, and finally succeeds
or fails. Any such finite behaviour is allowed (src/decompressors.rs is not modelled further; the
time limit and pass-through mode are covered by this freedom). -/
inductive Decoding where
  | done (ok : Bool)
  | call (out : Option Bytes) (next : Bool → Decoding)

/-- The environment of a connection: what is fixed, what the callbacks answer (as any function of what
they have seen so far and the new event) and what the decompressors compute (any function of the
history). Callbacks are taken not to modify the transaction or the parser. -/
structure Env extends TxEnv where
  hook : List Event → Event → Except Status Unit
  decoder : List Event → Nat → Decompressor → Option Bytes → Decoding

/-- A function on the parser: `&mut self`, and `Result` (or a panic). The state reached is kept also on
`Err`. -/
def M (α : Type) := Conn → Except Err α × Conn

instance : Monad M where
  pure a := fun s => (.ok a, s)
  bind m f := fun s =>
    match m s with
    | (.ok a, s) => f a s
    | (.error e, s) => (.error e, s)

namespace M

/-- The current state. -/
def state : M Conn := fun s => (.ok s, s)

/-- Changes the state. -/
def modify (f : Conn → Conn) : M Unit := fun s => (.ok (), f s)

/-- Leaves with an error. -/
def raise {α : Type} (e : Err) : M α := fun s => (.error e, s)

/-- `return Err(status)`. -/
def fail {α : Type} (s : Status) : M α := raise (.status s)

/-- Runs `m` and hands its `Result` to the caller, as a call without `?` does. A panic is not a result. -/
def attempt {α : Type} (m : M α) : M (Except Status α) := fun s =>
  match m s with
  | (.ok a, s) => (.ok (.ok a), s)
  | (.error (.status e), s) => (.ok (.error e), s)
  | (.error .panic, s) => (.error .panic, s)

/-- `x?` for a result. -/
def ofExcept {α : Type} : Except Err α → M α
  | .ok a => pure a
  | .error e => raise e

/-- `if c { m }`. -/
def when (c : Bool) (m : M Unit) : M Unit := if c then m else pure ()

/-- Changes the request side. -/
def setReq (f : Half → Half) : M Unit := modify fun s => { s with req := f s.req }

/-- Changes the response side. -/
def setResp (f : Half → Half) : M Unit := modify fun s => { s with resp := f s.resp }

end M

open M

/-- src/connection_parser.rs:410-417 `request`, `request_mut` (src/transactions.rs:52-74): the current
request transaction, created if it does not exist. When the store is full, `onNone` (`Err(ERROR)`, or a
panic for `unwrap`). -/
def requestTx (e : Env) (onNone : Err := .status .error) : M Tx := fun s =>
  match s.txs.requestMut e.cfg.maxTx with
  | (some t, txs) => (.ok t, { s with txs })
  | (none, txs) => (.error onNone, { s with txs })

/-- src/connection_parser.rs:420-427 `response`, `response_mut` (src/transactions.rs:82-104). -/
def responseTx (e : Env) (onNone : Err := .status .error) : M Tx := fun s =>
  match s.txs.responseMut e.cfg.maxTx with
  | (some t, txs) => (.ok t, { s with txs })
  | (none, txs) => (.error onNone, { s with txs })

/-- Writes through the reference returned by `request_mut`. -/
def putRequest (t : Tx) : M Unit := modify fun s => { s with txs := s.txs.set s.txs.request t }

/-- Writes through the reference returned by `response_mut`. -/
def putResponse (t : Tx) : M Unit := modify fun s => { s with txs := s.txs.set s.txs.response t }

/-- `self.request_mut().unwrap()` and a change of the transaction. -/
def modifyRequest (e : Env) (f : Tx → Tx) : M Unit := do
  let t ← requestTx e .panic
  putRequest (f t)

/-- `self.response_mut().unwrap()` and a change of the transaction. -/
def modifyResponse (e : Env) (f : Tx → Tx) : M Unit := do
  let t ← responseTx e .panic
  putResponse (f t)

/-- A fallible function on the current request transaction. -/
def onRequest {α : Type} (e : Env) (f : Tx → Except Err α × Tx) : M α := do
  let t ← requestTx e
  putRequest (f t).2
  ofExcept (f t).1

/-- A function with a result on the current request transaction. -/
def withRequest {α : Type} (e : Env) (f : Tx → α × Tx) : M α := do
  let t ← requestTx e
  putRequest (f t).2
  pure (f t).1

/-- A function with a result on the current response transaction. -/
def withResponse {α : Type} (e : Env) (f : Tx → α × Tx) : M α := do
  let t ← responseTx e
  putResponse (f t).2
  pure (f t).1

/-- Records the event and asks the callbacks. -/
def emit (e : Env) (ev : Event) : M Unit := fun s =>
  match e.hook s.trace ev with
  | .ok _ => (.ok (), { s with trace := s.trace ++ [ev] })
  | .error st => (.error (.status st), { s with trace := s.trace ++ [ev] })

/-- src/hook.rs:68-91 `TxHook::run_all`: nothing happens if there is no such transaction. -/
def runTxHook (e : Env) (h : TxHook) (index : Nat) : M Unit := do
  let s ← state
  when (s.txs.get index).isSome (emit e (.tx h index))

/-- src/connection_parser.rs:431-437 `request_next`. -/
def requestNext (e : Env) : M Unit := modify fun s =>
  { s with
    connFlags := if s.txs.request > s.txs.response then setFlag s.connFlags ConnFlag.PIPELINED
      else s.connFlags
    txs := s.txs.requestNext e.cfg.txAutoDestroy }

/-- src/connection_parser.rs:441-443 `response_next`. -/
def responseNext (e : Env) : M Unit := modify fun s =>
  { s with txs := s.txs.responseNext e.cfg.txAutoDestroy }

/-- src/connection_parser.rs:558-561 `request_data_consume`. -/
def requestConsume (n : Nat) : M Unit := modify fun s =>
  { s with
    input := s.input.consume n
    req := { s.req with bytesConsumed := (s.input.consume n).position } }

/-- src/connection_parser.rs:567-570 `request_data_unconsume`. -/
def requestUnconsume (n : Nat) : M Unit := modify fun s =>
  { s with
    input := s.input.unconsume n
    req := { s.req with bytesConsumed := (s.input.unconsume n).position } }

/-- src/connection_parser.rs:574-577 `response_data_consume`. -/
def responseConsume (n : Nat) : M Unit := modify fun s =>
  { s with
    input := s.input.consume n
    resp := { s.resp with bytesConsumed := (s.input.consume n).position } }

/-- src/connection_parser.rs:583-586 `response_data_unconsume`. -/
def responseUnconsume (n : Nat) : M Unit := modify fun s =>
  { s with
    input := s.input.unconsume n
    resp := { s.resp with bytesConsumed := (s.input.unconsume n).position } }

/-- `&input.as_slice()[0..n]`. -/
def inputPrefix (n : Nat) : M Bytes := fun s =>
  if n ≤ s.input.asSlice.length then (.ok (s.input.asSlice.take n), s) else (.error .panic, s)

/-- Runs a decompressor, with `callback` as its output (src/decompressors.rs:170-196). -/
def runDecoding (callback : Option Bytes → M Unit) : Decoding → M Bool
  | .done ok => pure ok
  | .call out next => do
    let r ← attempt (callback out)
    runDecoding callback (next r.toBool)

/-- The bomb check of src/request.rs:1306-1332 and src/response.rs:1286-1311: is the decompressed size
acceptable? `checked_mul` fails on a product of 2^64 or more. -/
def bombAccepts (o : CompressionOptions) (messageLen entityLen : Nat) : Bool :=
  let exceedsRatio :=
    if messageLen * o.bombRatio < 2 ^ 64 then decide (entityLen > messageLen * o.bombRatio) else true
  !(decide (entityLen > o.bombLimit) && exceedsRatio)

/-- src/request.rs:1108-1129, src/response.rs:1123-1144: the encoding named by a whole Content-Encoding
value; `none` when it has to be taken apart. -/
def directEncoding (ce : Bytes) : Option Encoding :=
  if cmpNocaseNozero ce (b! "gzip") == .eq || cmpNocaseNozero ce (b! "x-gzip") == .eq then some .gzip
  else if cmpNocaseNozero ce (b! "deflate") == .eq || cmpNocaseNozero ce (b! "x-deflate") == .eq then
    some .deflate
  else if cmpNocaseNozero ce (b! "lzma") == .eq then some .lzma
  else if cmpNocaseNozero ce (b! "inflate") == .eq || cmpNocaseNozero ce (b! "none") == .eq then
    some .none
  else none

/-- `ce.split(|c| c == ',' || c == ' ')` without the empty pieces (src/request.rs:1155-1158,
src/response.rs:1168-1171). -/
def encodingTokens (ce : Bytes) : List Bytes :=
  (splitOn 44 (ce.map fun c => if c == 32 then 44 else c)).filter (· ≠ [])

/-- src/request.rs:1173-1220, src/response.rs:1186-1234: the encoding named by one piece of a
Content-Encoding value. -/
def tokenEncoding (tok : Bytes) : Encoding :=
  if (indexOfNocase tok (b! "gzip")).isSome then .gzip
  else if (indexOfNocase tok (b! "deflate")).isSome then .deflate
  else if cmpSlice tok (b! "lzma") == .eq then .lzma
  else .none

/-- `layers > limit` for an optional limit. -/
def overLimit (limit : Option Nat) (n : Nat) : Bool :=
  match limit with
  | some l => decide (n > l)
  | none => false

/-- A decompressor with one more layer in front (src/decompressors.rs:275-289 `prepend`, 293-299
`new_with_callback`). -/
def prependLayer (d : Option Decompressor) (enc : Encoding) : Decompressor :=
  match d with
  | some d => { d with layers := d.layers ++ [enc] }
  | none => { layers := [enc] }

end Model

# Formal model of libhtp-rs in Lean 4

## Layout

* `lean/Verif/Basic.lean` – bytes, byte-string literals, reasoning about all 256 bytes.
* `lean/Verif/Model/*` – the model. Each definition cites the file and lines of `/repo` it models
  and says where it simplifies.
* `lean/Verif/Spec/*` – small specifications, written without reference to the model.
* `lean/Verif/Lemmas/*` – helper lemmas (no property claims).
* `lean/Verif/Props/*` – the property theorems, with `example`s beside each theorem showing that a
  concrete, non-trivial case meets its hypotheses.
* `MANIFEST.json` – property id → theorem names.
* `seeded/LOG.jsonl` – the wrong programs the theorems were tested against.

## Trusted base

* Lean 4.33.0's kernel, and the axioms `propext`, `Classical.choice`, `Quot.sound` (Lean's standard
  ones). No axiom is added, there is no `sorry`, `native_decide` or `bv_decide`.
* That the model matches the Rust text. The model is a hand translation; the citations exist so the
  reader can compare.
* The behaviour of the Rust standard library, `nom` and other crates as transcribed in the model's
  comments (`str::parse`, `nom` `take_while`, `tag`, ..., `IndexMap`/`Vec` insertion order).

## Modelling conventions

* A byte is `UInt8`, a byte string is `List UInt8`; `usize`/lengths are `Nat` (simplification: memory
  exhaustion and `usize` overflow are not modelled). 64-bit protocol counters which really can wrap
  or saturate are modelled with their wrap-around/saturation.
* `&mut self` functions return the new value; a panic path is an explicit error value.
* `nom` parsers become total functions returning `Option (rest × result)` or the exact
  `Incomplete`/`Error` distinction where the caller observes it.
* Loops become structural recursion or well-founded recursion; the connection loop is a step function
  with fuel and a proof that enough fuel always exists.
* Callbacks are an arbitrary oracle (what each callback returns is universally quantified); every call
  is recorded in a trace, which is what theorems about callbacks speak about.

## Plan per property

| id | what is modelled | how it is proved |
|----|------------------|------------------|
| C01 | `Bstr::cmp_*` iterators | induction; comparison against `map lower` spec and order laws |
| C02 | `index_of` loop | loop invariant, spec "least offset" |
| C03 | the NUL-skipping iterator | same, through a filtered-with-positions view |
| C04 | `Table`, `Headers` | list induction |
| C05 | `chomp`, trimming | maximality spec with `takeWhile`/suffix |
| C06 | `convert_port` | numeral spec, induction on digits |
| C07 | `validate_hostname` (IPv6 literal branch abstract: `Ipv6Addr::from_str` is a parameter) | spec on `splitOn '.'` |
| C08 | `ascii_digits`, `parse_content_length` | numeral value spec; round trip |
| C09 | `hex_digits`, `parse_chunked_length` | round trip by induction on digits |
| C10 | `parse_status` | iff spec |
| C11 | `protocol_version`, `parse_protocol` | iff grammar spec |
| C12 | URI parsers | concatenation equations |
| C13 | `normalize_uri_path_inplace` | stack invariant |
| C14–C17 | `decode_uri`, `path_decode_uri` and helpers | induction on input |
| C18–C19 | form parser | refinement: pieces = whole |
| C20 | UTF-8 automaton and `decode_and_validate` | automaton invariant, table by `decide +kernel` over the whole table |
| C21–C23 | header parser | round trip, segmentation and suffix lemmas |
| C24–C25 | `Transactions`, and the store inside a connection parser | invariant over operation histories, and over all reachable parser states |
| C26 | `Hook::run_all` | induction on callback list |
| C27 | `Logger`, log queue | trace induction |
| C28–C31, C33, C37–C38 | connection parser state machine | invariants over all call histories, oracle callbacks |
| C32 | the driver loop | decreasing measure |
| C34 | identity body states | per-chunk invariant, induction on the chunks |
| C35 | chunked body states | invariant over the tokens of the encoding still to come; false when a size line is cut (stale line buffer) – negations plus partial |
| C36, C48 | the callbacks recorded by the connection parser | invariant relating the trace to the state machines and the store; false when end callbacks fail or responses run ahead – negations plus partial |
| C39 | header repetition | induction on header list |
| C40, C44 | `process_request_headers` | case analysis against spec |
| C41 | bomb check over arbitrary decompressors that stop when refused; the chain stops | induction on the outputs |
| C42 | layer list | induction; false for limit zero – negation |
| C43 | gzip header automaton and a chain with one gzip layer over a codec that hands on its input | induction on the pieces with an invariant for what is still expected; false for two kinds of cuts – negation |
| C45 | configuration table | case analysis |
| C46 | authorization parsers | round trip |
| C47 | `ParserData` | invariants over operation sequences |
| C49 | URI parsers | round trip from the written form |
| C50 | `response_body_determine` | case analysis against spec |
| C51 | `decode_uri`, `path_decode_uri` status | induction; false for paths – negation |
| C52–C53 | `Uri::normalized_*`, `generate_normalized_uri` | composition of C06, C13, C15, C17 |
| C54 | `headers::Parser` (whole file) | round trip: induction over the fields and their continuation lines |
| C55 | the operations of `ConnectionParser` | a Hoare-style walk over every function: each `unwrap`, slice and subtraction is reached only where it is safe |
| C56 | `parse_request_line`, `split_on_predicate` | round trip from the parts to the line and back |
| C57 | `parse_response_line` | round trip from the parts to the line and back |
| C58 | `request_data` on whole requests, from a separate grammar of requests (`Spec/Message`) | each machine state is run symbolically on its part of a request; rounds are chained over the request, the requests of a call, and the calls |
| C59 | `response_data` on whole responses, from a separate grammar of responses (`Spec/Answer`) | as C58, in `Lemmas/RespRounds` and `Lemmas/RespSequence`; the transaction of each response is the one its request left behind |
| C60 | both streams on whole conversations (`Spec/Dialogue`) | invariant over the turns: both sides are between messages, and the unanswered requests are recorded in the transactions from the response index to the request index; C58 and C59 give the steps |
| C61 | `request_data` on requests cut into pieces (`Spec/Segmented` says where) | `Midway` (`Lemmas/SegStages`) describes every place where the parser may be when a call ends, and what is still to come; from each of them any further piece leads to another (`Lemmas/SegGo`, `SegBody`, `SegMain`), by induction on the length of the piece |
| C62 | `response_data` on responses cut into pieces (`Spec/Segmented` says where) | as C61, in `Lemmas/AnsStages`, `AnsBlock`, `AnsRun`, `AnsGo`, `AnsBody`, `AnsMain` |
| C63 | `close`, `flush_incomplete_transactions` | induction over the list of reported transactions; keys and indexes agree and are distinct in every reachable store |
| C64 | the chain of decompressors (`Model/Decompressors`) over decoders that satisfy the laws of `Spec/Decoder` (the decoders of flate2 and lzma_rs are not modelled: the laws are hypotheses, shown to be satisfiable by an example) | induction over the decoders (`Lemmas/Decoder`): each `write_all`, `flush_writer` and `finish` outputs what is missing; the number of steps is bounded by the output still missing |
| C65 | `restart`, `try_passthrough`, `set_passthrough` of the chain; the roles of the layers are specified in `Spec/Roles` | as C64, with layers that were given nothing, that try other encodings and that pass everything on (`Lemmas/Roles`) |
| C66 | `request_data` and `response_data` in any order on messages in pieces (`Spec/Interleaved`) | a joint invariant (`Lemmas/Joint`): where each parser is can be said without the other side (`Lemmas/SegJoin`, `AnsJoin`), and what each call reaches is computed from the pieces (`Lemmas/Sofar`) |
| C67 | the response side from the status line to the end of the body, with the decompressors of C64 behind `decoder` (`Spec/Download`) | an invariant of the calls (`Lemmas/DownloadRun`): what has been handed out is what has been fed, decoded (`Lemmas/Download`, from C64); the end from the counter or from the closed connection |
| C68 | `src/c_api/{config,connection_parser}.rs`: a heap of configurations and parsers named by numbers, every call with its answer or its fault (NULL, dangling, out of bounds, abort) (`Model/CApi`) | induction over the calls of the program, one step per call; no fault from C55 |
| C69 | `src/c_api/bstr.rs`: allocation of a size, byte-wise writes into it that fault out of bounds, C strings as memory read up to the first NUL (`Model/CApi`) | induction over the byte string with the write position as invariant |
| C70 | the setters of `src/c_api/config.rs` over `Config`, the numbers of `src/c_api/transaction.rs` (`Model/CApi`), one enumeration of the options (`Spec/CApi`) | one case per setter and option; induction over the calls |
| C71 | the response side on interim and final responses (`Spec/Interim`) | one lemma per interim response over the states of the response parser; induction over the interim responses of a call, and over the calls, with the invariant that a status line is awaited and nothing of an interim response is left in the transaction; a final response in pieces through the invariant of C62, entered behind its status line; interim responses in pieces with an invariant of their own, either between two of them or inside the header block of one (`Ans.Cutting`) |
| C72 | all functions of `request.rs` and `response.rs` (`Spec/Apart`, with `requestSide`/`responseSide` of `Spec/Message`) | every function of one side leaves the other side's fields of the transaction it works on as they are (`Lemmas/OtherMessage`); one lemma per function that a predicate on the transactions which only looks at the other side survives (`Lemmas/Apart*`); at the move to the next message the predicate is re-established for the next index |
| C73 | all functions of `request.rs` and `response.rs`, `close` (`Spec/Callbacks`) | an invariant per function: what has been added to the callbacks belongs to the side and to the current transaction; only the raw data callbacks of the side are ever registered as receivers |
| C74 | the CONNECT states of `request.rs`, the response side while a CONNECT request waits (`Spec/Connect`) | the states of the negotiation are written out (`Negotiates`, `Granted`, `Refused`); one lemma per call computes it step by step; induction over the calls that have to wait and over the pieces of the first line; the requests after it by C61; the response that grants the tunnel in pieces with an invariant for its status line and one for its header block (`Verdict`) |
| C75 | every function of the request and response machines, with callbacks that may refuse anywhere (`Spec/Refusal`) | a judgement `Obeys` (from a state in which nothing was refused, a function ends in such a state, or with the status of the refusal, which is the last event); one lemma per function, the results the code ignores (`let _ =`) being the ones that cannot be obeyed; then the loop and whole calls |
| C76 | every function of the request and response machines (`Spec/Consumed`) | a judgement `Sure` (a function never asks for more data), and for the handlers that do ask a postcondition `Said` (then nothing of the chunk is left); it needs that the counters of chunks and bodies are positive while a body is read (`ReqLive`, `RespLive`), an invariant of all histories; then the loop and whole calls, with the accounting of consumed bytes of C31 |
| C77 | every function of the request and response machines that writes a transaction (`Spec/Growth`) | `ReqWrite` and `RespWrite` (what a function of one side may write: the other side's part is the same, flags are only raised) are shown of every write (`Lemmas/Growth`, `Lemmas/Apart`, `Lemmas/ApartResp`); a predicate that survives such writes survives calls (`Lemmas/ApartCalls`), and so do histories |
| C78 | every function of the request and response machines (`Spec/Handed`) | functions that hand out no body data keep both the length and the amount handed out (`Lemmas/HandedReq`, `Lemmas/HandedResp`); those that do count first and hand out then, which leads from one agreement to another (`RespOwed`, `Leads`); the other side's calls neither write the length (C72) nor run these callbacks (C73) |
| C79 | `requestProtocol`, `requestIgnoreDataAfterHttp09`, `stateResponseStart`, `responseBodyIdentityStreamClose`, `closeConn` (`Spec/Simple`) | the rounds of the state machine for the line (`simple_line`, `simple_protocol`, `simple_finalize`), for data that is ignored (`ignore_step`) and for the answer (`simple_begins`, `simple_piece`), put together by an invariant over the calls (`Asking`, `Served`) |
| C80 | all functions of `response.rs`; `responseExpect` is the only one that writes the state of the request parser (`Spec/Expect`) | the lemmas of C72, one per function, for predicates that look at the request parser as well and survive a refusal (`RespLocal.refuse`, `Lemmas/ApartResp`); the predicate is that the parser is kept, or ended for a reason that was there at the beginning (`LeftAlone`, `Lemmas/Expect`) |
| C81 | the reading functions of `src/c_api/{transaction,header,uri}.rs` (`Model/CRead`); a program that reads with pointers and lengths (`Spec/CRead`) | C60 for what is recorded and which callbacks run; the table of C22/C59 entry by entry, with the lengths of joined values bounded by the header block; sums over the callbacks |
| C82 | both parsers on a head, interim responses, a refusal, a body that comes later (`Spec/Permission`) | the request head as in C74 up to the state that awaits the body; the calls of C71 from there; the response of C59 with the refusal as one more outcome (`Heeds`, `Settles` in `Lemmas/RespRounds`); the request parser resumed as in C74, with the body or at the end of the refused request (`Lemmas/Permission`); the steps put together |
| C83 | `request/response_initialize_decompressors` on a transaction as a callback leaves it (`Model/Decompression`) | by computation; the header lookup of C22 for a table without the field |
| C84 | the log functions of `src/c_api/{log,connection,mod}.rs` with the memory they hand out (`Model/CLog`); a program that reads the log (`Spec/CLog`) | induction over the queue: each round allocates and frees three objects at fresh addresses and leaves the memory as it was; C27 for the history |
| C85 | the counters of `Model/Conn` and the calls that change them; the bytes given to each side (`Spec/Counters`) | frame lemmas of the two parsers for one call, induction over histories; one history that counts data twice (partial: full statement false) |

## Findings: claims that are false of the code

Each is a theorem (a concrete run), next to the part that does hold.

* `C12_loses_fragment`: "/p?#frag" loses both the "?" and the fragment.
* `C13_not_rfc3986`, `C13_relative_becomes_absolute`: "/a/.." becomes empty (RFC 3986: "/"); "a/..//b" becomes "/b".
* `C15_process_invalid_panics`: decoding "%" followed by small bytes with `PROCESS_INVALID` overflows (a panic in a debug build).
* `C16_path_raw_nul_unflagged`: a raw NUL in a path raises no flag unless it terminates the path.
* `C20_truncated_not_invalid`: a path ending inside a multi-byte character is not reported as invalid.
* `C21_response_swallows`, `C21_response_swallows_cr`: on the response side body bytes (" CR LF", "CR CR LF") right
  behind the empty line are taken as part of it.
* `C22_split_deformed`, `C22_split_in_crlf`, `C22_response_split`: header parsing depends on segmentation; a cut between
  the CR and LF of the empty line lets body data be read as a header.
* `C28_response_error_forgotten`: a response stream in the ERROR state becomes a tunnel when the request stream turns out
  to carry another protocol after CONNECT. `C28_request_stop_forgotten`, `C28_stop_closed`: STOP on the request stream is
  undone by a 101 response, and STOP on either stream by `close`.
* `C35_request_cut_size_line`, `C35_response_cut_size_line`: a chunk-size line cut by the end of a piece of input is not put
  together properly; on the response side the chunk's data is then read as a size. `C35_request_cut_line_break`: every
  line break behind a chunk that is cut between CR and LF leaves a CR in the line buffer, until the field limit is
  exceeded and the stream fails.
* `C36_body_after_trailer`: data behind a chunked request is reported as its body after its trailer. `C36_end_refused`,
  `C36_completion_refused`: a failing callback for the end of a transaction or request lets its request callbacks run
  again. `C36_headers_cut`: closing within the headers runs the trailer callback without the headers callback.
* `C37_full_store_not_sticky`: a gap that finds the transaction store full is answered with ERROR without failing the
  stream.
* `C40_folded_unflagged`, `C40_nul_duplicate_unflagged`: a folded Content-Length, or a second one with a NUL in its name, does not raise
  the smuggling flag.
* `C42_request_limit_zero`, `C42_request_lzma_limit_zero` and the same for responses: a Content-Encoding that names one
  encoding installs its decompressor even where the limit is zero. For requests every layer counts towards the LZMA
  limit, not only LZMA layers.
* `C43_extra_length_cut`, `C43_checksum_cut`: the gzip header parser drops a byte when the data is cut between the two bytes
  of the length of the extra data or of the checksum, and loses its place in the compressed stream.
* `C46_backslash_swallows_quote`: a digest username ending with a backslash swallows its closing quote.
* `C48_response_ahead`: when two responses come before the end of a request, the rest of its body is reported for the next
  transaction and its own transaction never completes.
* `C49_at_sign_moves_host`: "http://good.example/p?mail=x@evil.example" has host "evil.example".
* `C51_path_overwritten`, `C51_path_nul_unreported`, `C51_form_overwritten`: the status asked for unwanted escapes in a path is
  overwritten by the next byte; an escaped NUL that does not end the path is not reported; a form parser keeps only the
  status of the last field.
* `C55_checked_build_panics`: with overflow checks (a debug build) and `PROCESS_INVALID`, the request "GET /%`0 HTTP/1.1" panics.
  The only other checked sum is `request_entity_len` (src/request.rs:1058), which overflows after 2^64 bytes of one body.
* `C54_response_splits_fold`: in a response, a continuation line that begins with "name:" is reported as a header of its own,
  with no flag; in a request the same bytes are part of the folded value.
* `C59_chunked_swallows_next`, `C59_no_headers_swallows_next`: the empty line that ends an empty trailer or an empty header
  block of a response is only seen where the data of the call end (src/response.rs:972 compares all that remains with CRLF).
  A response that follows in the same call is swallowed, and neither is reported complete.
* `C59_not_modified_with_length`: a 304 (or 204) response that has the field "Content-Length" is taken to have a body
  (src/response.rs:484), which swallows the beginning of the next response.
* `C52_conversion_reintroduces`: the UTF-8 conversion runs after decoding and reintroduces backslashes, "//" and upper case.
* `C61_empty_line_cut`: a call ends between the CR and the LF of the empty line after the header fields. The next request in
  the data is taken for a body and is never recorded.
* `C61_size_line_cut`: a call ends inside a chunk-size line. `request_body_chunked_length` clones the line buffer instead
  of emptying it, so the part before the cut is put in front of every later size line.
* `C61_phantom_request`: calls end between the CR and the LF after the data of chunks. The CRs pile up in the line buffer;
  `request_finalize` gives back too many bytes, and a request that nobody sent ("\r\r\r\r\r0") is recorded.
* `C62_status_line_end_cut`: a call ends after the CR of a status line and the next call is the LF alone. The first header
  line becomes a part of the message, the length of the body is not known, and the next response is taken for body data.
* `C62_size_line_cut`: a call ends inside the chunk-size line of a response. The next response is never recorded.
* `C63_twice`: closing a connection twice reports the unfinished transactions twice, unless they are removed.
* `C65_first_byte_alone`: data that a wrong decoder has taken before it refuses the next piece is not given to the decoder that
  is tried next. So the cuts decide whether a mislabelled body is decoded (for a decoder that needs two bytes to refuse).
* `C66_early_responses`: two responses come when only the line of the first request has come. `response_idle` advances the
  index of the current request (`request_next`) although the request parser is in the middle of a request: that request is
  never reported as complete, and its header field is recorded in the transaction of the second response.
* `C69_ambiguous`: the C string of a byte string with a NUL is also that of one with a backslash and a zero (as documented).
* `C70_null_missing`: `htp_tx_normalized_uri` and `htp_connp_destroy_all` are documented to take NULL but dereference it.
* `C70_true_is_one`: yes-or-no options of the C interface are off for every value but 1, where C programs expect any value but 0.
* `C70_huge_length`: a content length of 2^63 or more is told to C programs as -1, like none.
* `C71_no_headers_swallows_final`: a 100 Continue without header fields, which is the usual form, in the same call as the final response: the final response is taken for header fields of the interim one and never reported.
* `C71_status_line_as_headers`: if the call ends within the status line after an interim response, the beginning of that line is handed out as header data.
* `C71_repetitions_kept`: repeated header fields of an interim response count towards the bound on repeated fields of the final one.
* `C72_request_cut_short`: if the user removes the transaction of a request that has not been answered, its answer makes up a request and moves the request parser to the next transaction, although it is in the middle of another request; the rest of that request's body goes to a transaction that does not belong to it.
* `C74_server_speaks_first`: a tunnel is granted and the server sends the first line, as in SSH or SMTP: the line is reported as a response of a transaction without request, the client's first line then as request body of that transaction, which is reported complete twice; the tunnel is never recognised.
* `C74_refusal_reported_twice`: after a CONNECT request is refused, its transaction is reported complete when the client goes on and again when the server does.
* `C74_refusal_comes_back`: the same with transactions that are removed when complete: the response parser makes the transaction anew, reports its response complete again, and leaves it there without a request.
* `C75_start_ignored`: a callback for the start of a request answers STOP: the request is parsed all the same (`let _ = self.state_request_start()`, src/request.rs:1432).
* `C75_headers_ignored`: a callback for raw header data answers STOP: ignored if the data is handed out because the call ends (src/request.rs:1571, src/response.rs:1572), obeyed if it is handed out because the headers end.
* `C75_coded_stop`: a callback answers STOP to data of a compressed response: the call answers ERROR.
* `C75_coded_end_ignored`: a callback answers STOP to the end of the body of a compressed request: ignored; without compression it is obeyed.
* `C76_response_gap`: a gap in a response body that ends with the stream is answered DATA, but no byte of it is counted as consumed (src/response.rs:329-343); in a body of known length all of it is.
* `C76_callback_data`: a callback that answers DATA makes the call answer DATA although the rest of the chunk is unread.
* `C80_wrong_request_ended`: requests are pipelined, and an early one that asked for permission with "Expect: 100-continue" is refused while the head of a later one has come and its body has not: the later request is ended without its body (src/response.rs:463-476 looks at the content length of the request that is being read, not of the one that is answered), and its body is read as requests. A client and a server that agree with each other can so put requests into a body that the parser takes for real ones.
* `C83_setting_ignored`: the documentation (src/transaction.rs:431-436, 540-545) says that setting the content encoding to be processed to NONE in a headers callback prevents decompression. The decompressors are set up after the callback and overwrite the setting (src/connection_parser.rs:700-705, 863-868; src/response.rs:1147, src/request.rs:1134), so it has no effect.
* `htp_connp_get_request_tx` and `htp_connp_get_response_tx`, which look like questions, create the transaction they answer
  (`Op.askRequest`, `Op.askResponse`); every theorem about histories covers these calls.

## The connection parser

`Model/ConnBase`, `ConnRequest`, `Decompression`, `ConnResponse` and `Connection` model
`src/connection_parser.rs`, `src/request.rs` and `src/response.rs`: a state monad over `Conn` (both
directions, the transactions, the current chunk, the trace of callbacks) with `Err` and panic results.
`Op` is the API: `open`, `request_data`, `response_data`, `request_close`, `close`, `remove_tx`. An
environment `Env` holds the configuration, the callbacks (any function from the trace so far and the
new event to a result) and the decompressors (any finite behaviour). Theorems quantify over every
environment and over every state reachable by calls (`Spec.Reachable`). Concrete histories are
evaluated with `decide_cbv`, whose proofs the kernel checks with `propext` and `Quot.sound` only.

The model was validated by running it, outside the proofs, on the 150 recorded sessions in
`/repo/tests/files`: no session panics, and the results agree with what the project's own tests
assert about them, except where the assertion depends on real decompression, base64 or a special
configuration.

Callbacks are taken not to modify the transaction or the parser.

The panics modelled (C55) are: `unwrap` on a transaction that is missing because the store is full or the
transaction was removed, slicing a chunk beyond its end (src/request.rs:359, 481, src/response.rs:166, 308),
the subtraction in the search for "HTTP" (src/response.rs:699), the checked arithmetic of `x2c`
(src/urlencoded.rs:160-180) and the checked sum of src/request.rs:1058. The other indexing and
subtractions in the modelled files stand behind a test of the same length in the same block, and the model
keeps that test. Allocation failure, stack overflow and the panics of dependencies (nom, flate2, lzma_rs,
time, base64) are not modelled.

## Decompression

The connection parser is modelled over arbitrary decompressors (`Env.decoder`). `Model/Gzip` and
`Model/Decompressors` model `src/decompressors.rs` itself: the gzip header parser, the chain of
decompressors with its restarts, its pass-through mode and its `write`/`flush`/`finish`, over arbitrary
codecs (`Codecs`, any machine in the place of flate2 and lzma_rs). `chainDecoding` makes a decoder for
the connection parser out of it, and `C41_chain` shows it meets what C41 asks of a decoder.
Observed while modelling: the writer that a restart inside `flush_writer` creates is overwritten by the
old one; a failed restart there drops the rest of the chain; the time limit is never reached because
the decompressor is taken out of the transaction while it runs (the timer is not modelled).

## Not modelled

Not modelled: the inner `flate2`/`lzma` codecs (arbitrary machines), `base64` and IPv6 address text parsing (abstract
parameters), time measurement, what a decompressor that is dropped unfinished still writes (the destructors of `flate2`), of the C API the user data functions, multi-threading (the library is used single-threaded per
connection).

# coreHTTP in Lean 4: design

The code modelled is `/repo/source/core_http_client.c` (2702 lines) with its headers
(`core_http_client.h`, `core_http_client_private.h`, `core_http_config_defaults.h`,
`interface/transport_interface.h`). The properties are in `properties.jsonl`; the status of every property
is in `MANIFEST.json`.

## 1. Layout

| file | content |
|---|---|
| `Verif/Basic.lean` | bytes, the outcome type `Run` (value / fault / still running), memory blocks, status codes, `size_t`/`int32_t` arithmetic |
| `Verif/Model/Request.lean` | request building: core_http_client.c 1238-1745, 1926-1960 (Content-Length), 2450-2553 |
| `Verif/Model/RequestHistory.lean` | any sequence of request-building calls |
| `Verif/Model/World.lean` | environment, memory, event log, transport, clock |
| `Verif/Model/Send.lean` | sending: 1749-1981, 2171-2210 |
| `Verif/Model/Parser.lean` | llhttp as a parameter: interaction trees of callbacks |
| `Verif/Model/Receive.lean` | receiving and parsing: 568-1234, 1985-2167, and HTTPClient_Send 2214-2312 |
| `Verif/Model/ReadHeader.lean` | 529-563, 2317-2450, HTTPClient_ReadHeader 2557-2619, HTTPClient_strerror 2623-2702 |
| `Verif/Spec/*.lean` | small specifications; they use the model's data types, but none of its functions |
| `Verif/Ref/*.lean` | a concrete HTTP/1.x response parser satisfying the parser contract (`Ref.httpParser`), and facts about it |
| `Verif/Lemmas/*.lean` | helper lemmas |
| `Verif/Tests/*.lean` | the repository's own unit tests (all of core_http_utest.c and core_http_send_utest.c, 29 + 37 tests), transcribed and run on the model: evidence that the model is the program; tests, not proofs, and no theorem uses them |
| `Verif/Props/*.lean` | the property theorems (names begin with the property id), with non-vacuity examples beside each |

Reading order for a property: its theorem in `Props`, the definitions it mentions in `Spec`, the model functions it mentions in `Model`.

## 2. How the code is modelled

* **Bytes and memory.** A byte is `UInt8`, a buffer is a block of bytes named by a block id; the memory is a map
  from block ids to contents. `pBuffer` is a block id (or NULL = `none`); request and response share a buffer when
  they name the same block. Pointers into a buffer are offsets. `bufferLen` is what the caller *claims*; every write is
  checked against the *real* block length and goes to the distinguished outcome `Run.fault .oob` when outside it.
  Theorems assume only `bufferLen ≤ real length`.
* **Undefined behaviour is an outcome.** `Run.fault` carries out-of-bounds access, signed overflow, a failed `assert`
  (with its line number), or a call through a NULL function pointer. "Memory safe" means: no fault is ever the outcome.
* **`size_t`** has `sizeBits` bits (a parameter, 16/32/64 all covered): sums are reduced modulo `2^sizeBits` exactly where
  the C code adds `size_t` values, so overflow bugs are visible. `int32_t` values are `Int` with the C conversion from
  `size_t` modelled (implementation-defined wrap), `uint32_t` clock values are `UInt32`.
* **Loops that depend on the environment** (send, receive) take a fuel argument; exhausted fuel is `Run.more` ("still
  running"), and the world at that moment is available. Safety theorems hold for every fuel, i.e. at every moment of every run; termination
  theorems (C25, C34, C61) give a fuel bound for which `more` is impossible.
* **The environment.** The transport functions, the clock and the user's header callback are arbitrary functions over an
  arbitrary environment state `σ` (so they may be adversarial, history dependent, or share state). The only
  assumption is the contract in `transport_interface.h`: send returns at most the number of bytes offered (the code
  asserts this), recv stores no more bytes than were asked for and returns at most that number (`SendOk`, `RecvOk`).
  The header callback and the clock are assumed not to write to the library's buffers or objects.
* **A ghost log** in the world records every transport call with its arguments and result, every clock reading, every parser
  callback, every header-callback invocation. It is not read by the model; it is what "observable effects" means in theorems.
* **llhttp** is not in the repository (an empty submodule). It is a *parameter* `P : Parser`: an arbitrary parser automaton that, given a
  span of the buffer, produces a tree of callbacks (each callback's return value is an input to the rest of the tree), ending in
  an error code. What theorems need from it is the hypothesis `ParserOk` (Spec/ParserContract.lean: spans are ordered and inside the data given,
  callbacks come in the documented order, fragments of a field are contiguous ...), taken from llhttp's documentation; for
  C44 also `ChunkFree` (the parser's result does not depend on how its input is cut). `Ref/Http.lean` is a concrete parser, and
  `httpParser_ok` / `C44`'s example prove both hypotheses for it, so they are satisfiable; C58, C63–C72, C79, C80 are stated for it, with no
  assumption about the parser left.

### Simplifications (all of them)

* Source strings (method, path, host, field, value) are passed by value, with length = the `len` argument. A NULL pointer is `none`. What happens when they lie in
  the buffer that is written is modelled separately (`Model/RequestPtr.lean`, C75–C77); the field name of ReadHeader needs no such treatment, as nothing is written.
* The request body is at the beginning of its block, and in theorems about whole calls in another block than the headers. A body at any place, also in the request's
  own buffer, is modelled separately for the sending half (`Model/SendPtr.lean`, C121; equal to Model/Send at offset 0).
* Logging macros are no-ops.
* `assert` is modelled as enabled (a failed assertion is a fault). Theorems show none fires.
* A buffer starts at the start of its block.
* The transport `writev` member is not used by the library and not modelled.
* The unused state `HTTPParsingContext_t.llhttpSettings` is folded into the callback function given to the parser tree.

## 3. Trusted base

Lean 4.33.0's kernel; the axioms `propext`, `Classical.choice`, `Quot.sound` (nothing else is used by any theorem); the reading of the C code
as cited; the transport contract; for the theorems that mention it, the parser contract `ParserOk`. No axioms are added; no
compiled evaluation is trusted (concrete examples use `decide` / `decide +kernel`, both checked by the kernel).

Modelled: every function of core_http_client.c. Not modelled: llhttp's implementation (replaced by the contract and by the reference parser), the TLS/TCP transport,
C compilation and data layout, concurrency (the library has none), logging, unit tests, the CBMC proofs' stubs.

## 4. Plan per property

C01–C16 request building: `Model/Request.lean`; each API function is proved equal to a closed form (`addHeader_eq`, `init_eq`, ...), histories by
induction over the list of calls. C06 uses an independent line grammar (`Spec/Request.lean`), C14 an independent decimal reader and range grammar.
C17–C28 sending: the send loop is a fuel recursion with the log as ghost state; invariants by induction on fuel.
C29–C52, C59 receiving: an invariant relates callback state, memory and the log after every parser callback (`Lemmas/RecvStep.lean`), lifted over the callback tree
(`RecvParse`), the loop (`RecvLoop`) and the whole call (`RecvTop`); the meaning of a history is the independent `Spec/View.lean`.
C50: a two-run simulation (`Lemmas/RecvPair.lean`). C53–C56 `Model/ReadHeader.lean`, the same technique; C57 strerror: finite table.
C58: the wire format of responses (`Spec/Wire.lean`), the reference parser run on it (`Ref/RoundTrip*.lean`), an invariant that the
environment still holds the rest of the stream (`Lemmas/Keeps.lean`, `Exchange.lean`). C60, C61: composition.
C62: direct from the specifications of the building calls (`InitParamsOk`, `AddParamsOk`, `RangeObjectOk` in `Spec/Objects.lean`).
C63: `Session` (`Spec/Session.lean`), an inductive relation of exchanges and application steps; induction with the call
preconditions as the invariant. C64: composition of the history theorem of the building calls (`Spec/RequestHistory.lean`), the
wire theorem of the send phase, the request reader (`Spec/Request.lean`) and C58.
C65: the reference parser run on a header section followed by arbitrary bytes (`Ref/Lookup.lean`), the lookup theorem C53, and that receiving keeps
the header section in place (C41).
C66: the reference parser told to pause (`Ref/HeadersOnly.lean`): paused exactly after the last byte of the header section; then as C58.
C67: the reference parser run on a response followed by any bytes (`Props/Extraneous.lean`): line ends are skipped, the first other byte is an error; then as C58.
C68: what the reference parser has found in a beginning of a response is a beginning of what it finds in all of it (`Ref/Partial.lean`, nothing found is lost); then as C58 (`Props/Incomplete.lean`).
C69: the reference parser run on a header section without a body length followed by any bytes: they are body, and the message never ends (`eof_run`); then as C68 (`Props/UntilClose.lean`).
C70: the callers' programs are in `Spec/Steps.lean`; the three-call form by unfolding both, pieces by induction over the list (`sendPieces_spec`),
the exchange from C58's receive theorem and the invariant that the peer has got what was accepted.
C71: what is denoted is `HeadersAt` (`Spec/Section.lean`); a generic located summary of machine runs (`Ref/MachineGen.lean`) instantiated with the
locations of the first field name and of the end of the last value (`Ref/Section.lean`, `section_run`), related to the trace by `scan_sec`.
C72: when the transport fails the parser has been fed everything received and is in the middle of a message (`error_fed`); then as C68 and C69.
C73: real time as a function of the environment state; loop inductions with the time since the last clock reading that saw progress as invariant; everything else takes no time of its own (`Within`, Lemmas/Time.lean).
C74: a call in a larger program simulates the call alone (environment as a lens, memory equal on the blocks used and framed outside the blocks owned): `Acts`, Lemmas/Isolation.lean, function by function; then induction over the interleaving. C74_interference and C74_concurrent drop the lens laws that say that the rest of the environment stays the same: other threads may change it whenever the call is in a function of the application.
C75–C77: the building calls again, with pointers instead of values (`Model/RequestPtr.lean`, every byte read when the code reads it); a run is shown equal to a by-value run on the strings that the copy
loops saw (`addHeaderP_eq`, `initP_eq`, Lemmas/Aliasing.lean), which are the original ones within stated bounds; everything about the by-value calls carries over.

C121 (Model/SendPtr, Props/BodyAt): the body is a block and an offset, possibly in the block of the headers; the explicit memory after addContentLengthHeader is the sent headers followed by what was behind them, and the send loop offers what is in memory at each call (C21, C22); at offset 0 the program is that of Model/Send.

C120 (Spec/Sizing, Props/Sizing): induction over the list of additions: what the object holds is the text of the additions accepted so far (C05), an addition is refused for want of room exactly when the text with it is longer than the buffer (C13, C15), and the text only grows; the start is C02, the Content-Length the exact form of C81.

C119 (Spec/Update, Props/Update): invariant of the loop: every message the server can find in a call that writes is complete (C115) and carries a tag and f of the content that one truthful poll has told (C90, C65); when its condition holds, equal tags give equal contents, so the content before is the one that was read.

C118 (Spec/Once, Props/Once): every message the server can find is the complete request (C115), so all found messages are equal and the server, a fold over the history, carries out at most one order; a confirmation is one the server gave for this message (C90); a reliable attempt succeeds (C58, C61).

C117 (Spec/Arrive, Props/Arrive): induction on the attempts with what is stored at the end of the latest reliable attempt as the measure: a reliable attempt immediately after another sends its piece with the offset learnt there; either something else was stored in between, or the piece is appended (C58, C65, C93).

C116 (Spec/Upload, Props/Upload): induction on the attempts; by C115 every message the server can find in any call is a piece of the file with its offset, so each storing step keeps 'beginning of the file' (foldl_piece); what the application believes is the length of what was stored at some time (C90, C65), hence at the end the file.

C115 (Props/Whole): what is accepted is a prefix of the request (C26); the reader of Spec/Framing is monotone in what follows (readMessage_more), hence no proper prefix of a request is one.

C114 (Spec/Cache: true answers, the application's loop; Props/Cache): by induction on the polls; each call is C90_exchange, the request read back as in C64 with the If-None-Match value, the lookup C65_lookup.

C113 (Spec/Versions: true answers about versions, the application's loop; Props/Versions): by induction on the attempts; each call is C90_exchange, each lookup C65_lookup; what is held is a beginning of the version with the tag held.

C112 (Spec/Again: lenient servers; Props/Again): send_leaves (what a call leaves in the object) and the request reader of C93, for any two calls.

C111 (Props/Final): C110 for one buffer and requests other than HEAD; refuted for HEAD by a run.

C110 (Spec/Final: the application's loop; Props/Final): by induction on the calls; each returns some whole responses of the stream (C51_joined), and what is in the buffer afterwards is what was received (no_body_stored).

C109 (Spec/Early: the server; Props/Early): sending leaves what the server has to deliver alone (Lemmas/Keeps), then C58 for the receiving call, with the objects as sending left them.

C108 (Spec/SafeReuse: the server, the network and the rule; Props/SafeReuse): the environment invariants of Lemmas/Keeps for what the server got and what was delivered, C68/C72 for each call, C63 for the conditions at each call, induction over the calls on the connection.

C107 (Spec/Expect: the application's program; Props/Expect): sending as in C70, C58 twice, for a peer with two answers.

C106 (Props/Reuse): C58 and C68; refuted by three runs of two calls over one connection.

C105 (Props/Persist): C58 for flags and buffer; refuted by two runs with equal reports.

C104 (Lemmas/Shift, Props/Shift): a simulation between the two runs, function by function; readings and the remembered last time are both k ahead, and a + k - (b + k) = a - b.

C103 (Props/Slow): invariants over environment and log (EnvInv) say that the last progress is at most a timeout before what is due; the exact retry conditions of C24/C33 then exclude every failure, and C58/C61 give the rest.

C102 (Props/Stored): the PUT exchange by C64; the server is a Peer as long as what it stores does not change, which is tracked through what it got; then the download loop of C89 (download_gen).

C101 (Props/Stored): one exchange by C64 with a HEAD request (Got.contentLength), then C89 from the state the call leaves.

C100 (Props/Larger): relations between two runs with different buffer lengths, kept by every building call as long as nothing is too long; sending by the pair of runs of C99; receiving by the argument of C44 without equal buffer lengths (same_received).

C99 (Props/Residue, Props/ResidueBuild): two runs from different memories side by side: a relation kept by every building call (InitIndep), the send loop by induction, the receive loop by the simulation of C50 (RecvPair) between two worlds.

C98 (Spec/Place, Ref/Place, Props/Place): the location of the first body event as a summary (Ref/MachineGen) run in step with the view; the view's body is empty before and non-empty after the specified byte.

C97 (Spec/Recover, Props/Recover): induction over the attempts; C90's exchange theorem for the unreliable ones, C58 for the reliable ones, C61 for returning.

C96 (Spec/Redirect, Props/Redirect): induction on the chain; C58 for each exchange, C65 for the lookup, C75 for the path used where it lies.

C95 (Spec/Framing, Props/Framing): induction over the sessions of C63 with the self-delimitation of C93.

C94 (Spec/Framing, Props/Framing): C70 (an exchange in steps) with pieces that make up a chunked body, read by the independent reader.

C93 (Spec/Framing, Props/Framing): what the transport accepted (C64) is read by an independent RFC 9112 reader of requests, with arbitrary bytes behind it.

C92 (Spec/Discover, Props/Discover): as C89, with the size looked up by HTTPClient_ReadHeader (C65) in the buffer as the exchange left it.

C91 (Props/Resume): corollary of `C90_exchange`; refuted by the loop of C90 without clearing, which duplicates data.

C90 (Spec/Resume, Props/Resume): one exchange with any outcome (`C90_exchange`, from C68 and C72, with an invariant of environment and trace for an unreliable peer); induction over the attempts.

C89 (Spec/Download, Props/Download): the application's loop over pieces as a functional program over the modelled API; induction over the pieces, each step by C02, C15, C64 and the conditions HTTPClient_Send leaves (C60, C63).

C88 (Props/NullCallback): NULL members. The onHeaderCallback member may be NULL in the model; a run with it NULL is compared step by step with the run without a callback structure (Lemmas/NullCallback).

C87 (Props/Upgrade): 101 responses. `upParser` (Ref/Upgrade) is the reference parser stopping with HPE_PAUSED_UPGRADE after a 101 response, as llhttp does; it agrees with the reference parser until then (`up_agrees`). The headers-only theorem of C66 is proved for every parser that reads header sections (`HeadReader`), whatever follows them.

C86 (Props/Folded): folded header values. The invariant of receiving (`LocInv`, Lemmas/RecvStarts) follows where the pieces of each value are; with EvGood this gives what is reported, for any parser. `foldParser` (Ref/Fold) is a parser that accepts folded lines; it honours the contract with `strict = false`.

C81–C85 (Props/Room, NoResponse, Statuses, Config, NullClock): statements of the documentation in the header files, each false in some cases. Exact conditions from C17/C18 (C81), from the reference parser run on blank lines (C82), from C02/C15/C62 (C83, C84); C85 follows the zero clock through both phases of HTTPClient_Send.

C80: from C58 and C68 (`Props/NoBody.lean`); the reference parser decides about the body as llhttp does: chunked, then Content-Length, then status.

C79: from C58, with an interim response as the response; two exchanges run in the kernel (`Props/Interim.lean`).
C51, C79 joined: what several whole responses arriving in one receive call are reported as is a fold (`join`) of their separate reports; the reference parser run on the concatenation is shown to compute it (`Ref/Joined.lean`, `Props/Joined.lean`).

C78: exactly what a rejected addition leaves in the block (C09_failed_add_exact), then induction over histories as for C05, with a specification at the level of bytes (`blockRun`, Spec/Rejected.lean).

Properties that turned out **false** of the code; each has a `_refuted` theorem (a concrete or universally quantified witness) and a `_partial` theorem for what
does hold: C08, C09, C11, C19, C20, C32, C36, C43, C45, C47, C49, C51, C52, C53, C54, C77, C78, C79, C80, C81, C82, C83, C84, C85, C86, C87, C88, C91, C105, C106, C111, C112. They are kept with their full English statement and the status "partial".

## 5. Findings

With a theorem:

1. C08 method and path are copied unchecked: CR LF in them injects header lines.
2. C09 AddHeader failing on an invalid character has already overwritten the final CR LF: the header block is no longer terminated, although
   headersLen is unchanged and a later Send transmits it.
3. C11 `size_t` sums can wrap for lengths near SIZE_MAX; the check then passes and memcpy leaves the buffer (C11_exact_partial: exactly when the wrapped total is no more than bufferLen).
4. C19 SendHttpHeaders called directly with a body length above INT32_MAX: signed overflow, overrun of the number buffer or a wrong Content-Length.
5. C20 sending the same request object twice sends Content-Length twice.
6. C32 a receive timeout is never reported as HTTPNetworkError (contrary to the documentation): HTTPPartialResponse or HTTPNoResponse.
7. C36 with HTTP_RESPONSE_DO_NOT_PARSE_BODY_FLAG and a timeout inside the header section the call returns HTTPSuccess; C47 areHeadersComplete and contentLength are
   then those of an earlier response.
8. C43 headersLen depends on how the network cuts the response (17 or 20 in the example).
9. C45 a method that begins with HEAD (e.g. HEADX) is treated as HEAD.
10. C49 Content-Length is truncated to size_t.
11. C51 two responses arriving in one receive call are merged into one.
12. C52 the last trailer of a chunked response is not reported to the header callback.
13. C53/C54 ReadHeader goes on parsing into the body: an absent header may be "found" in the body, or reported as HTTPInvalidResponse (`C54_trailing_data`: also when only zeros follow
    the response in the buffer).
14. C69 a body delimited by the end of the connection is never reported as complete: llhttp_finish is not called and the zero-length parse at the end (documented as telling
    the parser about EOF, core_http_client.c:2122) does nothing, so the call ends as HTTPPartialResponse.
15. C77 InitializeRequestHeaders with a path (or method) that lies in the request buffer, e.g. the Location of a redirect in a shared buffer, and overlaps the place it is copied
    to: memcpy on overlapping memory. A host there is overwritten before it is read, and HTTPSuccess is returned (C75_bound_needed for AddHeader).
16. C78 after AddHeader has rejected a header, the first two bytes of the rejected line are in place of the final blank line. If the application ignores the rejected header and goes on, the
    next header line is joined to them; when the request is sent with a body that is Content-Length, so the server does not see a Content-Length and takes the body for the next request.
17. C79 an interim response (1xx) that arrives by itself is returned as the response, with HTTPSuccess; the next call returns the response to the earlier request. When both arrive
    together, the headers of the interim response are reported as headers of the response.
18. C80 a 304 response with a Content-Length (allowed by RFC 9110) makes the call wait for a body until the receive timeout: the headers-complete callback asks the parser to expect
    no body only for HEAD, and llhttp lets Content-Length decide before the status. (llhttp is not in the repository; its rule is modelled by the reference parser.)
19. C81 HTTP_MAX_CONTENT_LENGTH_HEADER_LENGTH (26), to which the documentation sends the application for the room a Content-Length header needs, leaves out the CR LF (and
    is not parenthesised): with that much room every body of 100 000 000 bytes or more is refused with HTTPInsufficientMemory.
20. C82 data of blank lines only gives HTTPNoResponse (documented: only if no data was received), even when it fills the response buffer (then not HTTPInsufficientMemory).
21. C83 InitializeRequestHeaders returns HTTPSecurityAlertInvalidCharacter, not documented for it, for a host with CR or LF.
22. C84 HTTP_USER_AGENT_VALUE may be any string, says the documentation; with the empty string every InitializeRequestHeaders call fails the assertion at line 1363, with a line
    break in it every call fails.
23. C85 getTime may be NULL, says the documentation of HTTPResponse_t; HTTPClient_ReceiveAndParseHttpResponse and SendHttpData, public since this version, then call through NULL
    (only HTTPClient_Send substitutes a clock).
24. C86 a value continued on a further line is reported to the callback with the line end inside and the last bytes missing ('abc', CR LF, ' def' as 'abc', CR LF, ' d'),
    and HTTPClient_ReadHeader gives only its first line; the call returns HTTPSuccess.
25. C87 bytes of a new protocol that arrive in the same receive as the end of a 101 response are dropped: HTTPSuccess, and neither pBody/bodyLen nor any other field
    tells that they have been received, or how many (llhttp stops with HPE_PAUSED_UPGRADE; the library ignores how far it read).
26. C88 a pHeaderParsingCallback structure whose onHeaderCallback is NULL passes HTTPClient_Send's parameter checks; the first header of the response is then a call
    through NULL.
27. C91 after HTTPNetworkError a reused response object may still report status code, headers and body of the earlier response (it is cleared when the first data is parsed,
    not when the call begins): an application that keeps what was received before a failure, to resume later, duplicates data unless it clears the object itself.
28. C105 the response object does not tell whether the connection stays open: an HTTP/1.0 response without Connection header (the server closes) and the same response with HTTP/1.1 (it does not) are reported alike, no flag set. An application has to look at the version at the start of pBuffer.
29. C106 the documented list of statuses after which to close the connection lacks HTTPInsufficientMemory, HTTPPartialResponse, HTTPNoResponse: the rest of the first response is then taken for the response to the next request, HTTPSuccess included (response smuggling: text within the first page is returned as the second response).
30. C111 HTTPClient_ReceiveAndParseHttpResponse looks the request method up in the request's buffer, which an earlier response may have overwritten when the buffer is shared: after an interim response the response to HEAD is taken for one with a body (HTTPPartialResponse after the timeout).
31. C112 (consequence of finding on C20) a request object sent again after a failure has two Content-Length lines, which servers refuse (RFC 9112), or, without a body the second time, one for a body that does not come: the server then takes the start of the next request for it (request smuggling).

Found while modelling, not stated as properties:

* Folded header values: `strict` in the contract says that the parser accepts none (see C86 for parsers that do).
* A receive error before any data leaves the response object as it was before the call.
* pHeaders may point to a trailer, with headersLen 0, when there are no headers.

## 6. Seeded bugs

`seeded/LOG.jsonl` has one line per edit of the model that was tried in a scratch copy: what was edited, the claim it breaks, the theorems that no longer
proved, and what was tightened.

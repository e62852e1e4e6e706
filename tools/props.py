#!/usr/bin/env python3
# Generates /verif/properties.jsonl (kept as a script only to guarantee valid JSON).
import json, os
S="source/core_http_client.c"; H="source/include/core_http_client.h"; PR="source/include/core_http_client_private.h"; T="source/interface/transport_interface.h"; CF="source/include/core_http_config_defaults.h"
P=[]
def p(title, statement, quantifier, why, anchors):
    P.append(dict(id="C%02d"%(len(P)+1), title=title, statement=statement, quantifier=quantifier, why_tests_cant=why, anchors=anchors))
def a(f,*syms): return ["%s:%s"%(f,s) for s in syms]

# ---- building requests
p("Initialised request layout",
  "When HTTPClient_InitializeRequestHeaders returns HTTPSuccess, the first headersLen bytes of the buffer are exactly: method, SP, path ('/' when the path is NULL or empty), SP, 'HTTP/1.1', CRLF, then 'User-Agent: <configured value>' CRLF unless HTTP_REQUEST_NO_USER_AGENT_FLAG is set, then 'Host: <host>' CRLF, then 'Connection: keep-alive' CRLF iff HTTP_REQUEST_KEEP_ALIVE_FLAG is set, then CRLF - and nothing else.",
  "every method, path, host, flag word, buffer size, prior buffer content, prior headersLen and configured user agent",
  "Unit tests compare a handful of literal requests; the layout must hold for all strings, sizes and flag combinations.",
  a(S,"HTTPClient_InitializeRequestHeaders","writeRequestLine","addHeader"))
p("Initialisation reports insufficient memory exactly when the request does not fit",
  "For valid parameters, HTTPClient_InitializeRequestHeaders succeeds if and only if the complete serialised header block fits in bufferLen and the host (and user agent) contain no CR or LF; it returns HTTPInsufficientMemory when the request does not fit and the host is clean.",
  "every buffer size and every request-info content",
  "Off-by-one boundaries exist for each combination of component lengths; tests pick a few sizes.",
  a(S,"HTTPClient_InitializeRequestHeaders","writeRequestLine","addHeader"))
p("Initialisation does not depend on what was in the buffer",
  "The status, headersLen and header bytes produced by HTTPClient_InitializeRequestHeaders do not depend on the previous content of the buffer or on the previous headersLen: re-initialising a used request object is the same as initialising a fresh one.",
  "every pair of prior buffer contents and prior headersLen values",
  "A relational (two-run) property over all prior contents.",
  a(S,"HTTPClient_InitializeRequestHeaders"))
p("AddHeader appends exactly one header line",
  "When HTTPClient_AddHeader succeeds on a buffer ending in the blank line CRLF CRLF, the new header block is the old one with its final CRLF replaced by '<field>: <value>' CRLF CRLF; when the block does not end in CRLF CRLF the line is simply appended; in both cases every earlier byte is preserved and headersLen is the new length.",
  "every buffer content, field and value",
  "Tests use fixed headers; preservation of every earlier byte must hold for all contents.",
  a(S,"HTTPClient_AddHeader","addHeader","httpHeaderStrncpy"))
p("Any history of header additions serialises the list of headers in order",
  "After a successful HTTPClient_InitializeRequestHeaders and any sequence of HTTPClient_AddHeader / HTTPClient_AddRangeHeader calls of which only some are accepted (rejected ones being rejected for invalid parameters or lack of space), the header block is the request line followed by exactly the accepted headers in call order, followed by a blank line.",
  "every finite sequence of calls with arbitrary arguments",
  "Histories are unbounded; tests exercise sequences of two or three calls.",
  a(S,"HTTPClient_InitializeRequestHeaders","HTTPClient_AddHeader","HTTPClient_AddRangeHeader"))
p("A built request parses back to what was built",
  "Reading the header block of a built request back by the HTTP line grammar (split at CRLF, name up to the first ':', value after ': ', stop at the blank line) yields exactly the request line and exactly the accepted (field, value) pairs in order, provided method and path contain no CR or LF.",
  "every built request",
  "Round-trip over all strings; cannot be sampled.",
  a(S,"HTTPClient_InitializeRequestHeaders","HTTPClient_AddHeader"))
p("Header injection through AddHeader is impossible",
  "HTTPClient_AddHeader succeeds only if the field contains no CR, LF or ':' and the value contains no CR or LF; if there is room, it returns HTTPSecurityAlertInvalidCharacter exactly when one of those is violated. A successful call therefore adds exactly one line to the request.",
  "every field and value byte string",
  "Security property over all byte strings and all positions of the offending byte.",
  a(S,"HTTPClient_AddHeader","httpHeaderStrncpy"))
p("No API parameter can inject header lines into the request",
  "A successfully initialised request contains exactly the documented lines: no content of method, path or host can introduce additional header lines.",
  "every method, path and host",
  "Security property over all byte strings.",
  a(S,"HTTPClient_InitializeRequestHeaders","writeRequestLine"))
p("A failed AddHeader leaves the request headers unchanged",
  "If HTTPClient_AddHeader or HTTPClient_AddRangeHeader returns anything other than HTTPSuccess, headersLen and the header bytes in [0, headersLen) are what they were before the call, so that the request can still be sent.",
  "every failing call: every status, every offending byte position, every prior block",
  "Requires inspecting the buffer for every failing position, including partially copied headers.",
  a(S,"HTTPClient_AddHeader","addHeader","httpHeaderStrncpy"))
p("Request building never touches memory outside the buffer",
  "HTTPClient_InitializeRequestHeaders, HTTPClient_AddHeader and HTTPClient_AddRangeHeader never read or write outside the first bufferLen bytes of the supplied buffer, never trip an assertion, and leave every byte at or beyond bufferLen unchanged, provided header sizes do not exceed what size_t can count.",
  "every buffer size, content and argument whose total length fits in size_t",
  "CBMC harnesses bound object sizes; tests sample sizes.",
  a(S,"HTTPClient_InitializeRequestHeaders","HTTPClient_AddHeader","HTTPClient_AddRangeHeader"))
p("Request building stays inside the buffer even for lengths near SIZE_MAX",
  "The previous property holds with no restriction at all on field and value lengths, i.e. also when the sum of the lengths does not fit in size_t.",
  "every pair of field and value lengths representable in size_t",
  "Needs objects near SIZE_MAX; impossible to allocate in a test.",
  a(S,"addHeader"))
p("headersLen never exceeds bufferLen",
  "Starting from any request object with headersLen <= bufferLen, after any sequence of the request-building calls, with any results, headersLen <= bufferLen and bufferLen and the buffer pointer are unchanged.",
  "every finite history of calls",
  "Invariant over unbounded histories.",
  a(S,"HTTPClient_AddHeader","HTTPClient_AddRangeHeader","HTTPClient_InitializeRequestHeaders"))
p("AddHeader reports insufficient memory exactly when the line does not fit",
  "For valid parameters, HTTPClient_AddHeader returns HTTPInsufficientMemory if and only if (length kept after backtracking over the final blank line) + fieldLen + valueLen + 6 exceeds bufferLen, and then changes nothing.",
  "every buffer size, content, field and value length",
  "Exact boundary for all lengths.",
  a(S,"addHeader"))
p("Range header text denotes the requested range",
  "When HTTPClient_AddRangeHeader succeeds, the added header is 'Range: bytes=a-b', 'Range: bytes=a-' or 'Range: bytes=-n' with exact decimal numbers, and reading the value back by the byte-range grammar yields exactly the requested range (first-last, from-first, last-N).",
  "all accepted int32 pairs",
  "2^64 argument pairs.",
  a(S,"HTTPClient_AddRangeHeader","addRangeHeader","convertInt32ToAscii"))
p("Range parameters are accepted exactly when they denote a range",
  "HTTPClient_AddRangeHeader returns HTTPInvalidParameter (for a valid request object) exactly when rangeEnd < -1, or rangeStart < 0 with rangeEnd != -1, or rangeStart > rangeEnd >= 0, or rangeStart = INT32_MIN.",
  "all int32 pairs",
  "2^64 argument pairs.",
  a(S,"HTTPClient_AddRangeHeader"))
p("Integers are written as exact decimal text within their buffers",
  "Every number the library writes into a request (range bounds, Content-Length for bodies up to INT32_MAX) is its minimal decimal representation, and is produced without overflowing the internal scratch buffers and without arithmetic overflow.",
  "all int32 values other than INT32_MIN",
  "2^32 values and two in-place loops.",
  a(S,"convertInt32ToAscii","addRangeHeader","addContentLengthHeader"))
p("Content-Length equals the body length",
  "When HTTPClient_Send (or HTTPClient_SendHttpHeaders with a length up to INT32_MAX) sends a request with a non-empty body and HTTP_SEND_DISABLE_CONTENT_LENGTH_FLAG clear, the headers put on the wire are the prepared headers plus exactly one added line 'Content-Length: <decimal body length>'; with the flag set or an empty body the prepared headers are sent unchanged.",
  "every body length from 0 to INT32_MAX, every flag word, every prepared header block",
  "All lengths and all header blocks.",
  a(S,"HTTPClient_SendHttpHeaders","addContentLengthHeader","HTTPClient_Send"))
p("Content-Length does not fit: nothing is sent",
  "If the automatic Content-Length line does not fit in the header buffer, HTTPInsufficientMemory is returned, the header buffer is unchanged and nothing is sent or received.",
  "every header block and buffer size",
  "Boundary behaviour for every block.",
  a(S,"HTTPClient_SendHttpHeaders","addContentLengthHeader"))
p("SendHttpHeaders is safe for every declared body length",
  "HTTPClient_SendHttpHeaders, called with any size_t body length, never overflows an internal buffer and never sends a Content-Length different from that length.",
  "every size_t value of reqBodyLen",
  "Values above INT32_MAX are not tested for this entry point.",
  a(S,"HTTPClient_SendHttpHeaders","addContentLengthHeader","convertInt32ToAscii"))
p("Sending the same request object again sends the same headers",
  "Calling HTTPClient_Send repeatedly with the same prepared request headers and the same body puts the same header block on the wire each time.",
  "every number of repeated sends",
  "History property: state carried in the caller's request object across calls.",
  a(S,"HTTPClient_Send","addContentLengthHeader"))

# ---- sending
p("Sent bytes are a prefix of the data, in order, without loss or duplication",
  "At every moment of HTTPClient_SendHttpData the bytes accepted by the transport, concatenated over all its send calls, are a prefix of the data; they are all of it if and when HTTPSuccess is returned.",
  "every data, every transport behaviour (any sequence of partial, zero and error results), every clock",
  "Unbounded number of partial sends and interleavings with timeouts.",
  a(S,"HTTPClient_SendHttpData")+a(T,"TransportSend_t"))
p("Each transport send is offered exactly the unsent remainder",
  "Every call of the transport send function is given exactly the bytes not yet accepted, is never given an empty buffer, and never reads outside the data.",
  "every data and every transport behaviour",
  "All splits of the data.",
  a(S,"HTTPClient_SendHttpData"))
p("Transport send errors are reported at once",
  "A negative result of the transport send function makes HTTPClient_SendHttpData return HTTPNetworkError without calling send again, and conversely HTTPNetworkError is only returned after a negative result or after a zero result whose retry time has elapsed.",
  "every transport behaviour and clock",
  "All schedules.",
  a(S,"HTTPClient_SendHttpData"))
p("Send retry timeout is measured correctly, including clock wrap-around",
  "After a zero result from the transport send, sending is given up if and only if at least HTTP_SEND_RETRY_TIMEOUT_MS have elapsed since the last accepted byte (or since the start), where the 32-bit millisecond clock may wrap around any number of times between calls as long as less than 2^32 ms pass between the two readings compared; without a user clock a zero result is never retried.",
  "every clock history and transport behaviour",
  "Clock wrap-around and arbitrarily long schedules.",
  a(S,"HTTPClient_SendHttpData")+a(CF,"HTTP_SEND_RETRY_TIMEOUT_MS"))
p("Sending terminates",
  "If the clock advances by at least 1 ms (and by less than 2^32 - HTTP_SEND_RETRY_TIMEOUT_MS ms) per fruitless attempt, HTTPClient_SendHttpData returns after at most (data length) * (timeout + 1) + timeout + 1 transport calls; without a user clock, after at most (data length) + 1 calls.",
  "every data, every transport, every advancing clock",
  "Liveness over unbounded schedules.",
  a(S,"HTTPClient_SendHttpData"))
p("Headers are sent completely before the body, and the body before anything is received",
  "In HTTPClient_Send the bytes accepted by the transport are always a prefix of header block followed by body; the body is not offered until all header bytes were accepted; the transport receive function is not called until every byte of header and body was accepted.",
  "every transport behaviour and clock",
  "Ordering over all schedules.",
  a(S,"HTTPClient_Send","sendHttpRequest","HTTPClient_SendHttpHeaders","sendHttpBody"))
p("Invalid parameters cause no network activity and no change",
  "HTTPClient_Send returns HTTPInvalidParameter exactly when a documented parameter condition is violated, and then calls neither transport function, nor the clock, nor the header callback, and changes neither buffer nor the response object.",
  "every parameter combination",
  "Combinatorial parameter space including all sizes.",
  a(S,"HTTPClient_Send"))
p("Only documented statuses are returned",
  "HTTPClient_Send returns only HTTPSuccess, HTTPInvalidParameter, HTTPNetworkError, HTTPPartialResponse, HTTPNoResponse, HTTPInsufficientMemory, HTTPParserInternalError or one of the HTTPSecurityAlert codes; in particular never HTTPHeaderNotFound, HTTPInvalidResponse or (with a parser that pauses only when asked to) HTTPParserPaused.",
  "every execution",
  "All executions of transport and parser.",
  a(S,"HTTPClient_Send","HTTPClient_ReceiveAndParseHttpResponse","processLlhttpError"))

# ---- receiving
p("Received data is stored contiguously and never past the buffer",
  "Every call of the transport receive function asks for exactly the free remainder of the response buffer, which is never empty, at exactly the end of the data received so far; the total received never exceeds bufferLen.",
  "every transport behaviour honouring the transport contract, every parser, every clock",
  "All fragmentations of the response.",
  a(S,"HTTPClient_ReceiveAndParseHttpResponse")+a(T,"TransportRecv_t"))
p("Every received byte is parsed exactly once and in order",
  "The data handed to the parser over the whole call, concatenated, is exactly the received byte stream up to the last parse: nothing is skipped, repeated or reordered, even though body bytes are moved within the buffer meanwhile.",
  "every fragmentation and every contract-abiding parser",
  "Interplay of in-place body compaction with later parsing, for all fragmentations.",
  a(S,"HTTPClient_ReceiveAndParseHttpResponse","parseHttpResponse","httpParserOnBodyCallback"))
p("A transport receive error ends the call with HTTPNetworkError",
  "A negative result of the transport receive function makes the call return HTTPNetworkError without parsing and without another receive call; HTTPNetworkError is returned by the receiving phase only in that case.",
  "every execution",
  "All schedules.",
  a(S,"HTTPClient_ReceiveAndParseHttpResponse"))
p("A receive timeout returns HTTPNetworkError",
  "If HTTP_RECV_RETRY_TIMEOUT_MS expires without data, the receiving call returns HTTPNetworkError (as documented in core_http_config_defaults.h).",
  "every execution that times out",
  "All schedules.",
  a(CF,"HTTP_RECV_RETRY_TIMEOUT_MS")+a(S,"HTTPClient_ReceiveAndParseHttpResponse"))
p("Receive retry timeout is measured correctly, including clock wrap-around",
  "A zero result of the transport receive function ends receiving if and only if at least HTTP_RECV_RETRY_TIMEOUT_MS have elapsed since the last received data (or the start), with a 32-bit clock that may wrap; without a user clock the first zero result ends receiving.",
  "every clock history and transport behaviour",
  "Wrap-around and unbounded schedules.",
  a(S,"HTTPClient_ReceiveAndParseHttpResponse"))
p("Receiving terminates",
  "If the clock advances by at least 1 ms (and less than 2^32 - timeout) per empty receive, the receiving call returns after at most bufferLen * (timeout + 2) + timeout + 2 receive calls (without a user clock: bufferLen + 1), whatever the parser, the server and the header callback do.",
  "every server, parser and advancing clock",
  "Liveness over unbounded schedules.",
  a(S,"HTTPClient_ReceiveAndParseHttpResponse"))
p("Receiving stops at the end of the message",
  "When parsing the data of a receive call ends with the message complete, with an error or with a pause, the transport receive function is not called again.",
  "every execution",
  "All schedules.",
  a(S,"HTTPClient_ReceiveAndParseHttpResponse","httpParserOnMessageCompleteCallback"))
p("HTTPSuccess means a complete response was received",
  "If HTTPClient_Send returns HTTPSuccess then the response message was received completely (or, with HTTP_RESPONSE_DO_NOT_PARSE_BODY_FLAG, at least its complete header section).",
  "every execution",
  "All truncations at every byte with every flag.",
  a(S,"HTTPClient_ReceiveAndParseHttpResponse","getFinalResponseStatus"))
p("Incomplete responses are classified correctly",
  "When receiving ends without error and without HTTP_RESPONSE_DO_NOT_PARSE_BODY_FLAG: HTTPNoResponse iff no message had begun; HTTPInsufficientMemory iff a message had begun, is not complete and the response buffer is full; HTTPPartialResponse iff a message had begun, is not complete and the buffer is not full; HTTPSuccess iff the message is complete.",
  "every execution",
  "All truncation points and buffer sizes.",
  a(S,"getFinalResponseStatus","HTTPClient_ReceiveAndParseHttpResponse"))
p("Parser errors are never reported as success and map to the documented security alerts",
  "Each parser error code maps to the documented status; every error code other than the end-of-file-in-message one yields a non-success status; no valid parse is reported as an error.",
  "every parser error code, known or unknown",
  "Unknown/future error codes are unbounded.",
  a(S,"processLlhttpError","parseHttpResponse"))
p("Every response header is reported exactly once, complete and in order",
  "On completion of the header section the user's header callback has been invoked exactly once per header, in order, with the complete field and value as received and the response status code, and headerCount is the number of headers, however the network fragmented the response.",
  "every response, every fragmentation of it across receive calls",
  "All split positions, including inside names and values.",
  a(S,"processCompleteHeader","httpParserOnHeaderFieldCallback","httpParserOnHeaderValueCallback","httpParserOnHeadersCompleteCallback"))
p("The body returned is exactly the body received, de-chunked in place",
  "On return, pBody[0..bodyLen) is the concatenation of all body fragments the parser found, in order (all chunk framing removed), for every fragmentation and every chunking.",
  "every body, chunking and fragmentation",
  "Overlapping in-place moves over all chunk and fragment sizes.",
  a(S,"httpParserOnBodyCallback"))
p("Moving body bytes never damages headers or unread data",
  "While a body is assembled in place, neither the bytes before the body nor the received bytes not yet parsed are ever modified.",
  "every chunking and fragmentation",
  "All overlaps.",
  a(S,"httpParserOnBodyCallback"))
p("All reported locations lie inside the received data",
  "On return pHeaders[0..headersLen) and pBody[0..bodyLen) lie within the received part of the response buffer, the headers precede the body, and every location passed to the header callback lies within the received data; no assertion of the library fires and no memory outside the response buffer is accessed.",
  "every execution with a contract-abiding transport and parser",
  "All executions.",
  a(S,"HTTPClient_ReceiveAndParseHttpResponse","httpParserOnHeadersCompleteCallback","httpParserOnBodyCallback"))
p("headersLen does not depend on network fragmentation",
  "The pHeaders/headersLen reported for a given response are the same however the response was split across receive calls, and exclude the terminating CRLF characters.",
  "every response and every fragmentation",
  "All split positions.",
  a(S,"httpParserOnHeadersCompleteCallback","parseHttpResponse"))
p("Status, headers and body do not depend on network fragmentation",
  "For a given response byte stream, the status code, the reported headers, the header count, the content length, the flags and the body are the same for every way of splitting it across receive calls (with interspersed empty receives that do not time out).",
  "every response and every pair of fragmentations",
  "Relational property over all fragmentations.",
  a(S,"HTTPClient_ReceiveAndParseHttpResponse","parseHttpResponse"))
p("HEAD responses have no body",
  "The parser is told that the response has no body exactly when the request method is HEAD, so that a Content-Length in a HEAD response does not make the call wait for or consume a body; the decision is taken from the request before the response can overwrite a shared buffer.",
  "every request header block",
  "Every method string, shared or separate buffers.",
  a(S,"initializeParsingContextForFirstResponse","httpParserOnHeadersCompleteCallback"))
p("HTTP_RESPONSE_DO_NOT_PARSE_BODY_FLAG exposes exactly the raw data after the headers",
  "With the flag set and the header section complete, the call returns HTTPSuccess, no body callback processing happens, and pBody/bodyLen delimit exactly the received bytes following the header section, unmodified.",
  "every response and fragmentation",
  "All positions of the header end within the received data.",
  a(S,"HTTPClient_ReceiveAndParseHttpResponse","httpParserOnHeadersCompleteCallback"))
p("A reused response object reports only the new response",
  "When an HTTPResponse_t is reused, everything reported after a successful call (status code, pHeaders, headersLen, headerCount, pBody, bodyLen, contentLength, respFlags, areHeadersComplete) describes the new response and is independent of the values the object held before.",
  "every prior value of the response object, every execution",
  "Relational property over all stale values.",
  a(S,"parseHttpResponse","httpParserOnHeadersCompleteCallback"))
p("Connection flags mirror the response headers",
  "After the header section, HTTP_RESPONSE_CONNECTION_CLOSE_FLAG and HTTP_RESPONSE_CONNECTION_KEEP_ALIVE_FLAG are set in respFlags exactly when the parser saw the respective Connection header, and no other bit is set.",
  "every parser flag word",
  "All flag words and stale values.",
  a(S,"httpParserOnHeadersCompleteCallback"))
p("contentLength is the Content-Length header value",
  "After a complete header section contentLength equals the response's Content-Length (0 when absent).",
  "every 64-bit content length and every size_t width",
  "Values beyond 2^32 on 32-bit targets are not tested.",
  a(S,"httpParserOnHeadersCompleteCallback"))
p("The response may share the request's buffer",
  "Using one buffer for request headers and response gives the same status, the same bytes on the wire, the same reported response and the same response bytes as using two separate buffers of the same size.",
  "every request, response, transport, clock and parser",
  "Aliasing, relational over all executions.",
  a(H,"HTTPRequestHeaders_t.pBuffer","HTTPResponse_t.pBuffer")+a(S,"HTTPClient_Send"))
p("Exactly one response is reported per request",
  "The response object describes the first response message in the received data; data belonging to a further message in the same receive never alters what is reported for the first, and is not reported as HTTPSuccess of a mixed message.",
  "every sequence of messages in the received data",
  "All concatenations of messages.",
  a(S,"httpParserOnMessageBeginCallback","httpParserOnStatusCallback","httpParserOnMessageCompleteCallback"))
p("Trailer fields of chunked responses are reported like headers",
  "Header fields following the last chunk (trailers) are reported to the header callback and counted, like header fields before the body.",
  "every list of trailers",
  "All lists.",
  a(S,"processCompleteHeader","httpParserOnHeaderFieldCallback"))

# ---- reading headers
p("ReadHeader returns the first header with that name, ignoring case",
  "When HTTPClient_ReadHeader returns HTTPSuccess, the output location and length delimit the value of the first header in the response whose field name equals the requested name up to ASCII letter case (NULL/0 for an empty value); no earlier header has that name.",
  "every response and every requested name",
  "All names, header lists and positions.",
  a(S,"HTTPClient_ReadHeader","findHeaderInResponse","findHeaderFieldParserCallback","findHeaderValueParserCallback"))
p("ReadHeader reports absence exactly",
  "For a response whose header section the parser accepts, HTTPHeaderNotFound is returned exactly when no header has the requested name; for a response the parser rejects before the header is found, HTTPInvalidResponse is returned; the output parameters are then unchanged.",
  "every response and requested name",
  "All header lists.",
  a(S,"findHeaderInResponse"))
p("ReadHeader changes nothing but its outputs and stays inside the buffer",
  "HTTPClient_ReadHeader does not modify the response object or buffer, rejects invalid parameters with HTTPInvalidParameter without parsing, trips no assertion, and reports a location inside the buffer.",
  "every response, every contract-abiding parser",
  "All executions.",
  a(S,"HTTPClient_ReadHeader"))
p("Header-name comparison is ASCII-case-insensitive equality",
  "Two names of equal length compare equal exactly when they are equal after mapping ASCII letters to one case; all other bytes (including bytes >= 0x80 and the neighbours of the letters '@', '[', '`', '{') are compared exactly; the relation is an equivalence.",
  "every pair of byte strings of any length",
  "All byte strings.",
  a(S,"caseInsensitiveStringCmp"))
p("Status names",
  "HTTPClient_strerror returns the enumerator's own name for every HTTPStatus_t value, distinct names for distinct statuses, and NULL for every other integer.",
  "every integer",
  "All integers.",
  a(S,"HTTPClient_strerror"))
p("Round trip: a well-formed response is returned as sent, however it arrives",
  "For every well-formed HTTP/1.0 or HTTP/1.1 response (status line, headers, body delimited by Content-Length or by chunked encoding) that fits in the buffer and every way the network splits it, HTTPClient_Send returns HTTPSuccess with that status code, exactly those headers reported in order and exactly that body.",
  "every well-formed response, every fragmentation, with a reference parser",
  "End-to-end over all responses and fragmentations.",
  a(S,"HTTPClient_Send","HTTPClient_ReceiveAndParseHttpResponse"))
p("Receiving does not stop early",
  "HTTPNoResponse (with room left in the buffer) and HTTPPartialResponse are returned only after a receive call that delivered nothing at a time when the retry timeout had expired since the last received data (or there is no user clock): as long as data may still come in time, the call keeps waiting for it.",
  "every execution",
  "All schedules of data and empty receives.",
  a(S,"HTTPClient_ReceiveAndParseHttpResponse","getFinalResponseStatus"))
p("A whole exchange is memory-safe and touches only its two buffers",
  "HTTPClient_Send with buffers of the claimed lengths trips no assertion, accesses no memory outside the buffers, and changes only the first bufferLen bytes of the request buffer and of the response buffer, whatever the transport (within its contract), the clock, the server and a contract-abiding parser do.",
  "every execution, also with a shared buffer",
  "All executions and all moments of each.",
  a(S,"HTTPClient_Send"))
p("HTTPClient_Send returns",
  "If every fruitless send or receive takes at least 1 ms (and not as long as the 32-bit clock's range minus the timeout), HTTPClient_Send returns after a number of transport calls bounded by the buffer sizes and timeouts; without a clock function, by the buffer sizes alone.",
  "every execution",
  "Termination is not testable.",
  a(S,"HTTPClient_Send"))
p("Parameter checks of the request-building calls are exact",
  "HTTPClient_InitializeRequestHeaders and HTTPClient_AddHeader return HTTPInvalidParameter exactly when a documented precondition on their parameters fails (NULL object, buffer, method, host, field or value; a zero length), and then write nothing and change neither object; HTTPClient_AddRangeHeader likewise for its object and range rules. With valid parameters they never return HTTPInvalidParameter.",
  "every combination of parameters",
  "All combinations of parameters and buffer contents.",
  a(S,"HTTPClient_InitializeRequestHeaders","HTTPClient_AddHeader","HTTPClient_AddRangeHeader"))
p("Any number of exchanges with reused objects",
  "A program that sends any number of requests with the same request headers and the same response object, adding headers, changing bodies, flags and hooks in between, never trips an assertion or touches other memory, and each exchange that puts a request on the wire puts the request line and headers as they stand at that moment; each exchange returns the peer's response as if the response object were fresh.",
  "every finite session of exchanges and request-building calls in between",
  "All histories of use.",
  a(S,"HTTPClient_Send","HTTPClient_AddHeader"))
p("End to end: the peer reads the described request, the caller gets the peer's response",
  "A request built with HTTPClient_InitializeRequestHeaders and any list of HTTPClient_AddHeader / HTTPClient_AddRangeHeader calls and sent with HTTPClient_Send is read by an independent HTTP/1.1 request reader as that method, path, those header fields in order and that body; and the response the peer sends back is what the caller gets.",
  "every well-formed request description, response, fragmentation in both directions",
  "End-to-end over all requests, responses and fragmentations.",
  a(S,"HTTPClient_InitializeRequestHeaders","HTTPClient_AddHeader","HTTPClient_AddRangeHeader","HTTPClient_Send"))
p("Every header of a received response can be looked up",
  "After HTTPClient_Send has returned a response, HTTPClient_ReadHeader finds every field of its header section by name, in any letter case, and returns the value of the first field with that name, whatever the body and the rest of the buffer hold, as often as it is asked.",
  "every well-formed response, every header name in it, every fragmentation, every previous buffer content",
  "All responses, names and buffer contents.",
  a(S,"HTTPClient_ReadHeader","HTTPClient_Send"))
p("Headers-only: the header section is returned and nothing of the body is lost",
  "With HTTP_RESPONSE_DO_NOT_PARSE_BODY_FLAG set, against a peer that accepts the request and delivers a well-formed response whose header section fits in the response buffer (the body may be larger than the buffer), HTTPClient_Send returns HTTPSuccess with the status code, headers, content length and connection flags of that response, and the bytes pBody/bodyLen delimit followed by what the transport has still to deliver are exactly the body as sent: the application can go on reading where HTTPClient_Send stopped.",
  "every well-formed response, of any size; every fragmentation and timing; every request that fits in its buffer",
  "All responses and fragmentations, including bodies of any length.",
  a(S,"HTTPClient_Send","HTTPClient_ReceiveAndParseHttpResponse","httpParserOnHeadersCompleteCallback"))
p("Data after a response on a closing connection is never mixed into it",
  "When a peer delivers a well-formed response that fits in the buffer and then any further bytes, on a connection the response announces as closing (or bytes that do not begin like another response), HTTPClient_Send either returns HTTPSuccess with exactly that response, having read at most line ends after it, or a security alert (HTTPSecurityAlertExtraneousResponseData on a closing connection, HTTPSecurityAlertInvalidCharacter otherwise); the unread bytes stay in the transport.",
  "every well-formed response, every extraneous byte string, every fragmentation and timing",
  "All responses, all extraneous data, all ways the two can be split over receive calls.",
  a(S,"HTTPClient_Send","HTTPClient_ReceiveAndParseHttpResponse","processLlhttpError"))
p("Responses of any size, complete or not: nothing wrong is reported",
  "When the network delivers a well-formed response of any size, or the beginning of one, HTTPClient_Send returns HTTPSuccess exactly when all of it has been received; otherwise it returns HTTPInsufficientMemory with the buffer full, or HTTPNoResponse / HTTPPartialResponse after the retry timeout, and then the status code, headers and body reported are part of that response, with the complete header section (status code, headers, content length, connection flags) once that has been received. With a cooperative peer and a response that does not fit, the call returns HTTPInsufficientMemory, having received as much as fits, and the transport still has the rest.",
  "every well-formed response, every point at which delivery stops or the buffer is full, every fragmentation and timing",
  "All responses, all cut-off points, all buffer sizes.",
  a(S,"HTTPClient_Send","HTTPClient_ReceiveAndParseHttpResponse","getFinalResponseStatus"))
p("A body that ends with the connection is never reported as complete, and nothing of it is lost or altered",
  "For a response with neither Content-Length nor chunked transfer coding whose body ends with the connection, HTTPClient_Send never returns HTTPSuccess, since it cannot tell a complete body from a truncated one: it returns HTTPPartialResponse after the retry timeout, with the header section as sent and exactly the body bytes received, or HTTPInsufficientMemory once the buffer is full.",
  "every such response, every body, every fragmentation and timing, every buffer size",
  "All responses and bodies of this kind, all cut-off points.",
  a(S,"HTTPClient_Send","HTTPClient_ReceiveAndParseHttpResponse","getFinalResponseStatus","parseHttpResponse"))
p("An exchange made in steps is the same as HTTPClient_Send",
  "Calling HTTPClient_SendHttpHeaders, HTTPClient_SendHttpData and HTTPClient_ReceiveAndParseHttpResponse in turn has the same effects and results as HTTPClient_Send. A body may be sent in any number of pieces through a reused buffer: the peer gets the headers followed by the pieces in order, nothing is received before all of it was accepted, and the peer's response is returned as it was sent.",
  "all parameters HTTPClient_Send accepts; all lists of pieces, all contents and buffers, all declared lengths and flags, all transports; for the last part all peers and well-formed responses",
  "The number and sizes of pieces, and the transport's behaviour in each call, are unbounded.",
  a(S,"HTTPClient_Send","HTTPClient_SendHttpHeaders","HTTPClient_SendHttpData","HTTPClient_ReceiveAndParseHttpResponse"))
p("pHeaders and headersLen delimit the header fields as sent",
  "When HTTPClient_Send returns (other than with HTTPNetworkError) and all of the header section of a well-formed response has been received, pHeaders points to the first byte after the status line and the headersLen bytes there are the header fields exactly as sent, one per line, without the CR LF CR LF that ends the section; only when the data given to the parser was split within these four bytes does the length include the part of them before the split. Without header fields pHeaders is NULL and headersLen 0.",
  "every well-formed response (any body kind, complete or truncated, including bodies that end with the connection), every option, every fragmentation and timing",
  "All responses and all ways to cut them into receive calls.",
  a(S,"HTTPClient_Send","HTTPClient_ReceiveAndParseHttpResponse","httpParserOnHeaderFieldCallback","httpParserOnHeadersCompleteCallback"))
p("A transport error in the middle of a response: nothing wrong is reported",
  "When HTTPClient_Send returns HTTPNetworkError and what has been received is the beginning of a well-formed response (complete header section or not, any kind of body), then either nothing was received and the response object is as it was passed, or the whole request was sent and the status code, headers and body reported are part of that response, with the complete header section once that has been received; the response was not complete. For a body that ends with the connection (whose end many transports report as an error) the header section is as sent and the body is all that was received after it.",
  "every well-formed response, every point at which the transport fails, every fragmentation and timing, all options",
  "All responses and all points of failure.",
  a(S,"HTTPClient_Send","HTTPClient_ReceiveAndParseHttpResponse"))

p("No call blocks for longer than its timeouts allow",
  "If each call of the application's transport functions and clock takes at most D ms (and each header callback at most E ms), and the clock shows the true time modulo 2^32, then HTTPClient_SendHttpData has returned after at most D + (k+1)(send timeout + 2D) ms, k being the number of send calls that accepted something; HTTPClient_ReceiveAndParseHttpResponse after at most D + (k+1)(receive timeout + 2D) ms plus the time spent in callbacks, k being the number of receive calls that delivered something; and HTTPClient_Send after at most the sum for header block, body and response. Since progress is made at most once per byte, the time HTTPClient_Send takes is bounded by a number that depends only on the size of the request, the response buffer and the timeouts, whatever the network does, also across a wrap-around of the clock.",
  "every transport and clock with calls of bounded duration, every request, body, flags and response buffer, every parser, every start time",
  "The durations of the calls, the number of fruitless calls and the start time are unbounded.",
  a(S,"HTTPClient_Send","HTTPClient_SendHttpData","HTTPClient_ReceiveAndParseHttpResponse"))

p("Separate clients do not interfere",
  "The library keeps no state of its own between or during calls. A call of the API depends only on its parameters, its transport, clock and callbacks and the contents of the buffers it is given, and changes only the request and response objects it is given and their buffers. So when several clients with separate transports, objects and buffers (request bodies that are only read may be shared) take turns in any order, or run in threads of their own (one running whenever another is in its transport, clock or callback), each of them observes exactly the statuses, transport and callback traffic, objects and buffer contents that it would observe if the others did not exist.",
  "every number of clients, every interleaving of any API calls of any clients with any parameters (valid or not), every state of every transport, clock and callback, every memory",
  "Unit tests run one client; independence quantifies over all interleavings and all states of the other clients.",
  a(S,"HTTPClient_InitializeRequestHeaders","HTTPClient_AddHeader","HTTPClient_AddRangeHeader","HTTPClient_SendHttpHeaders","HTTPClient_SendHttpData","HTTPClient_ReceiveAndParseHttpResponse","HTTPClient_Send","HTTPClient_ReadHeader"))

p("Strings inside the library's buffers can be used without copying them",
  "The strings given to HTTPClient_AddHeader and HTTPClient_InitializeRequestHeaders may lie anywhere, also in the request buffer itself, for instance a header value located by HTTPClient_ReadHeader in a response that shares the buffer. As long as a string is in another buffer, or does not begin in the request buffer before the place it is copied to (for method and path: before the end of that place; for AddHeader also: or ends before the new line), the call does exactly what it does with copies taken before the call. So a redirect can be followed with the path in place.",
  "all memories, request objects, and positions and lengths of the strings within these bounds; for the redirect all well-formed responses",
  "All positions and lengths of the strings relative to the buffer, and all contents.",
  a(S,"HTTPClient_AddHeader","HTTPClient_InitializeRequestHeaders","addHeader","writeRequestLine","httpHeaderStrncpy","HTTPClient_ReadHeader"))
p("HTTPClient_AddHeader is safe for strings that overlap what it writes",
  "Wherever field and value lie, even when the copy overwrites them while they are being read, HTTPClient_AddHeader has no undefined behaviour and changes nothing outside the buffer; it returns HTTPInsufficientMemory exactly when the line does not fit, and when it succeeds the header block is the old one plus one well-formed line of the lengths asked for, with no CR or LF inside (nor ':' in the field).",
  "all memories and request objects, all positions and lengths of field and value",
  "All ways source and destination can overlap.",
  a(S,"HTTPClient_AddHeader","addHeader","httpHeaderStrncpy"))
p("A new request can be built in a shared buffer for a path that lies in it",
  "HTTPClient_InitializeRequestHeaders with method, path or host lying in the request buffer (shared with the response they were read from) has no undefined behaviour and makes the request for that path and host.",
  "all memories, request objects, positions and lengths of the strings",
  "All ways source and destination can overlap.",
  a(S,"HTTPClient_InitializeRequestHeaders","writeRequestLine"))

p("A rejected header does no harm to the rest of the request",
  "After HTTPClient_AddHeader has rejected a header with HTTPSecurityAlertInvalidCharacter the application can go on with the request: headers added later, and the Content-Length added when it is sent with a body, are lines of their own, and the request consists of exactly the accepted headers.",
  "every history of request-building calls with any results, every position of the bad byte, every request sent afterwards",
  "All histories and all rejected headers; tests look at the status of the rejected call only.",
  a(S,"HTTPClient_AddHeader","addHeader","httpHeaderStrncpy","HTTPClient_SendHttpHeaders"))

p("Interim responses are not taken for the response",
  "When the server sends interim responses (status 1xx) before the response, HTTPClient_Send returns the response proper, with its headers only, and nothing is left over that would be taken as the response to the next request.",
  "every interim response and response, every segmentation by the transport",
  "All interleavings of interim responses with receive calls, and the following exchanges on the connection.",
  a(S,"HTTPClient_Send","receiveAndParseHttpResponse","httpParserOnMessageCompleteCallback","httpParserOnStatusCallback"))

p("Responses that never have a body end with their header section",
  "A response with status 1xx, 204 or 304 has no body, whatever its header section says (a 304 response may state the Content-Length of the representation, RFC 9110): HTTPClient_Send returns HTTPSuccess when its header section has been received.",
  "every response with such a status, with and without Content-Length, every segmentation by the transport",
  "All header sections and all segmentations, and it depends on what the parser, a dependency, decides about the body; the unit tests replace the parser.",
  a(S,"httpParserOnHeadersCompleteCallback","receiveAndParseHttpResponse"))

p("HTTP_MAX_CONTENT_LENGTH_HEADER_LENGTH is room enough for the Content-Length header",
  "An application that leaves HTTP_MAX_CONTENT_LENGTH_HEADER_LENGTH bytes free behind the headers of a built request never gets HTTPInsufficientMemory for want of room for the Content-Length header when it sends the request with a body.",
  "every built request, buffer size, body length and transport",
  "All body lengths and buffer sizes; the constant is used nowhere in the code or its tests.",
  a(S,"HTTPClient_SendHttpHeaders","addContentLengthHeader","addHeader")+a(H,"HTTP_MAX_CONTENT_LENGTH_HEADER_LENGTH"))

p("HTTPNoResponse means that no data was received",
  "HTTPNoResponse is returned only when no data was received from the transport, and whenever none was received and the transport reported no error.",
  "every sequence of results of the transport and clock, every request and option flag",
  "All received byte strings in all segmentations; tests replace the parser.",
  a(S,"HTTPClient_ReceiveAndParseHttpResponse","getFinalResponseStatus")+a(H,"HTTPNoResponse"))

p("The request-building calls return only their documented statuses",
  "HTTPClient_InitializeRequestHeaders returns only HTTPSuccess, HTTPInvalidParameter or HTTPInsufficientMemory, HTTPClient_AddRangeHeader the same, and HTTPClient_AddHeader in addition HTTPSecurityAlertInvalidCharacter, that only for an invalid character in the field or value.",
  "every combination of parameters, NULL or not, every buffer content and size",
  "All parameter combinations.",
  a(S,"HTTPClient_InitializeRequestHeaders","HTTPClient_AddHeader","HTTPClient_AddRangeHeader"))

p("Any string can be configured as HTTP_USER_AGENT_VALUE",
  "Whatever string HTTP_USER_AGENT_VALUE is, HTTPClient_InitializeRequestHeaders with valid parameters and room for the request succeeds, and the header line 'User-Agent: <value>' follows the request line.",
  "every configured string, every request",
  "The value is fixed at compile time; tests are built with one value.",
  a(S,"HTTPClient_InitializeRequestHeaders","addHeader")+a(CF,"HTTP_USER_AGENT_VALUE"))

p("getTime may be NULL",
  "A response object with getTime NULL can be used: then a send or receive that transfers nothing is not retried, and nothing else goes wrong.",
  "every sequence of results of the transport, every request, body and response buffer",
  "All interleavings of empty sends and receives.",
  a(S,"HTTPClient_Send","HTTPClient_SendHttpData","HTTPClient_ReceiveAndParseHttpResponse","getZeroTimestampMs")+a(H,"HTTPResponse_t"))

p("A header value continued on further lines is delivered whole",
  "When a header value is continued on further lines (obsolete line folding, accepted by the parser), the header callback is given the value, and so is the caller of HTTPClient_ReadHeader: the lines without the line ends between them.",
  "every response, every cut of it into receives, every parser that honours the parser contract, whether it accepts folded lines or not",
  "All header values, all places where lines and receives end; the unit tests replace the parser.",
  a(S,"httpParserOnHeaderValueCallback","processCompleteHeader","findHeaderValueParserCallback","HTTPClient_ReadHeader"))

p("Data that follows a 101 (Switching Protocols) response is not lost",
  "When the response is a 101 (Switching Protocols) and bytes of the new protocol arrive together with its end, HTTPClient_Send returns HTTPSuccess with the response as sent, and the application can tell which bytes of the new protocol have already been taken from the transport.",
  "every well-formed 101 response that fits in the buffer, every byte string that follows it, every request, fragmentation and timing",
  "All cuts between response and new protocol; the unit tests replace the parser and never return HPE_PAUSED_UPGRADE with data left.",
  a(S,"parseHttpResponse","llhttp_resume_after_upgrade","receiveAndParseHttpResponse","HTTPClient_Send"))

p("HTTPClient_Send survives every NULL pointer among its parameters and their members",
  "Whatever combination of HTTPClient_Send's parameters and of the members of the structures they point to is NULL, the library never calls or reads through NULL: it returns HTTPInvalidParameter and does nothing when it needs what is NULL, as documented (if any provided parameters or their members are invalid).",
  "every combination of NULL and usable parameters and members, every transport, server and parser within their contracts",
  "All combinations of NULL members with all responses; whether an unset member is used depends on what the server sends.",
  a(S,"HTTPClient_Send","processCompleteHeader","HTTPClient_ReceiveAndParseHttpResponse"))

p("A file downloaded piece by piece with range requests is the file",
  "An application that downloads a file by, for each piece in turn, calling HTTPClient_InitializeRequestHeaders, HTTPClient_AddRangeHeader(first, last) and HTTPClient_Send on the same objects and appending the body of each response, gets exactly the file, and no call fails, when the server answers range requests correctly (with any framing and headers), the request fits and each response fits in its buffer.",
  "every file of at most 2^31 bytes, every division into non-empty pieces, every server with any choice of framing and headers per piece, every fragmentation of what is sent and received, every prior content of objects and buffers, request and response buffer shared or not",
  "Any number of exchanges with state (headersLen, contentLength, flags, body pointers, buffers) carried over; tests do one exchange with a mocked transport and parser.",
  a(S,"HTTPClient_InitializeRequestHeaders","HTTPClient_AddRangeHeader","HTTPClient_Send","addRangeHeader","convertInt32ToAscii"))

p("An interrupted download can be resumed from what was received",
  "An application downloads a file with range requests from an unreliable server over an unreliable network. It clears the response object before each attempt and, whatever HTTPClient_Send returns, appends the reported body if the reported status code is 206, and asks for the rest in the next attempt. After any number of attempts what it has is a beginning of the file: no byte is lost, duplicated or altered, and no call faults.",
  "every file of at most 2^31 bytes, every sequence of attempts and sizes, every point at which sending or receiving fails or stalls (in the header section, in the body, before any data), every response too large for the buffer, every server whose 206 answers are true (complete or shorter than asked for, any framing), other statuses with any content, request and response buffer shared or not",
  "All crash points of all exchanges with state carried over from one to the next; tests inject single failures into one exchange with a mocked parser.",
  a(S,"HTTPClient_Send","HTTPClient_AddRangeHeader","HTTPClient_InitializeRequestHeaders","HTTPClient_ReceiveAndParseHttpResponse","sendHttpData"))

p("Whatever HTTPClient_Send returns, the response object reports only the response to this request",
  "Whatever HTTPClient_Send returns, the status code and the body reported in the response object are part of the response to this request, or there are none.",
  "every prior content of the response object, every point at which sending or receiving fails",
  "All prior states and all failure points; tests start from a zeroed response object.",
  a(S,"HTTPClient_Send","HTTPClient_ReceiveAndParseHttpResponse","parseHttpResponse"))

p("A file of unknown size is downloaded whole, its size looked up in the response headers",
  "An application asks for a file k bytes at a time with HTTPClient_InitializeRequestHeaders, HTTPClient_AddRangeHeader and HTTPClient_Send, looks up Content-Range in each response with HTTPClient_ReadHeader, and stops when it has as many bytes as that header states. No call fails and what it has in the end is exactly the file, when the server answers range requests correctly and states the length in the first Content-Range field.",
  "every non-empty file and every k with length + k at most 2^31 + 1, every server with any framing, any other headers and any letter case per answer, every fragmentation, every prior content of objects and buffers, request and response buffer shared or not",
  "Any number of exchanges through all four API functions with state carried over; tests use each function alone with a mocked parser.",
  a(S,"HTTPClient_InitializeRequestHeaders","HTTPClient_AddRangeHeader","HTTPClient_Send","HTTPClient_ReadHeader","findHeaderInResponse"))

p("The server finds the end of every request",
  "A request built by any sequence of HTTPClient_InitializeRequestHeaders, HTTPClient_AddHeader and HTTPClient_AddRangeHeader calls that add no Content-Length or Transfer-Encoding header of their own, and sent with any body by HTTPClient_Send without HTTP_SEND_DISABLE_CONTENT_LENGTH_FLAG, is self-delimiting: unless the call returns HTTPNetworkError, a server reading what the transport accepted, followed by any other bytes, finds exactly this request line, these headers and this body, and ends exactly where the other bytes begin.",
  "every history of building calls, every body (also none), every transport, every outcome other than HTTPNetworkError, all bytes that may follow on the connection",
  "Request smuggling and desynchronisation depend on all header lists, body lengths and following bytes; tests compare a few sent buffers.",
  a(S,"HTTPClient_Send","HTTPClient_SendHttpHeaders","addContentLengthHeader","sendHttpBody"))

p("A body of unknown length can be uploaded in chunks",
  "A request with the header Transfer-Encoding: chunked is sent with HTTPClient_SendHttpHeaders (no body length declared, or HTTP_SEND_DISABLE_CONTENT_LENGTH_FLAG set), its chunks with any number of HTTPClient_SendHttpData calls in any pieces through any buffers, and the response is received with HTTPClient_ReceiveAndParseHttpResponse. No Content-Length header is added; unless the network fails the server reads exactly this request with the data of the chunks as its body and finds its end; with a cooperative server all calls succeed and the application gets exactly the server's response.",
  "every request, every list of non-empty chunks with any size texts and extensions, every division into pieces and buffers, every transport (first part), every cooperative peer and fragmentation (second part)",
  "Any number of API calls with buffers reused in between; tests exercise each function once.",
  a(S,"HTTPClient_SendHttpHeaders","HTTPClient_SendHttpData","HTTPClient_ReceiveAndParseHttpResponse"))

p("A server reads a connection as exactly the requests that were sent over it",
  "Any number of requests sent with HTTPClient_Send over one connection with the same objects, each described afresh, with any bodies, none of them failing with HTTPNetworkError: the server reads the bytes of the connection as exactly these requests with these bodies, in order, and nothing else. A call that reported HTTPInsufficientMemory for its Content-Length line has left no trace.",
  "every number of calls, every description and body of each, every transport, whatever the application does to its memory and objects between the calls",
  "A history property over all sessions; tests make one or two calls.",
  a(S,"HTTPClient_Send","HTTPClient_SendHttpHeaders","addContentLengthHeader"))

p("A chain of redirects is followed to its end",
  "An application sends a GET request; as long as the response has a 3xx status it looks up Location with HTTPClient_ReadHeader and asks for the path found there, with the same request and response objects, giving HTTPClient_InitializeRequestHeaders the pointer into the response buffer (request and response in different buffers) or a copy of the path (buffers shared or not). If the server's chain of redirects ends, no call fails and the application ends with exactly the last response.",
  "every site and every chain of any length whose paths fit in the request buffer, every framing and header order, any letter case of Location, every fragmentation, every prior content of objects and buffers",
  "Any number of exchanges through three API functions, with a pointer into one call's buffer used as argument of another; tests use each function alone.",
  a(S,"HTTPClient_InitializeRequestHeaders","HTTPClient_Send","HTTPClient_ReadHeader"))

p("A download over unreliable connections completes when enough of them are reliable",
  "An application downloads a file with range requests, making a new connection for each attempt, clearing the response object before it, and appending the reported body if the reported status is 206, whatever HTTPClient_Send returns. If every call returns (C61), and the reliable attempts together ask for as many bytes as the file has, the application ends up with exactly the file - whatever happens in the unreliable attempts and in whatever order they come.",
  "every file of at most 2^31 bytes, every finite sequence of reliable and unreliable attempts of any sizes, every point at which an unreliable connection fails or stalls, every server whose 206 answers are true, every fragmentation, request and response buffer shared or not",
  "Progress over any interleaving of failing and working connections with reused objects; tests run one call with one scripted failure.",
  a(S,"HTTPClient_InitializeRequestHeaders","HTTPClient_AddRangeHeader","HTTPClient_Send"))

p("pBody points to the first byte of the body, and is NULL exactly when there is none",
  "When HTTPClient_Send returns (with a status other than HTTPNetworkError, and HTTP_RESPONSE_DO_NOT_PARSE_BODY_FLAG clear) having received all or part of a well-formed response, pBody points into the response buffer at the position where the first byte of the body was received - directly after the header section, or after the first size line of a chunked body - and it is NULL if the response has no body (empty, HEAD, 204, 304, ...) or the first body byte has not been received. It does not depend on how the response was fragmented. For every parser: pBody is NULL until body data is reported and then stays where the first body data was received.",
  "every well-formed response of any size, complete or not, with Content-Length, chunked or ended by the connection; every request, transport, fragmentation and clock",
  "The pointer must be right for every header section length, size line and cut of the data; tests check a few literal responses.",
  a(S,"HTTPClient_Send","httpParserOnBodyCallback","parseHttpResponse"))

p("Nothing depends on what else is in memory",
  "The library reads nothing that the application or the transport has not written: building a request depends only on the arguments and the header block built so far, HTTPClient_Send only on the header block, the request body, the objects and the behaviour of the transport and clock, receiving only on the latter and the request's header block, HTTPClient_ReadHeader only on the contents of the response buffer. Two runs in which the unused part of the request buffer, the response buffer (and its address) and all other memory differ arbitrarily give the same statuses, the same calls of the transport with the same data, the same header callbacks, the same objects up to the buffer address, the same bytes received and the same body.",
  "all pairs of memories that agree on the header block and the request body; every history of building calls, request, transport, clock, response and parser",
  "It compares all pairs of runs over all contents of uninitialised or stale memory; a test runs with one content.",
  a(S,"HTTPClient_Send","HTTPClient_ReceiveAndParseHttpResponse","HTTPClient_AddHeader","HTTPClient_InitializeRequestHeaders","HTTPClient_AddRangeHeader","HTTPClient_ReadHeader"))

p("A larger buffer never hurts",
  "Making a buffer larger changes nothing but whether data fits. A history of request-building calls that never returned HTTPInsufficientMemory gives the same statuses and the same header block in any larger buffer. A request that could be sent is sent in the same way, with the same result, from a larger request buffer. When the same bytes are received into a larger response buffer, the status and all that is reported are the same, except that HTTPInsufficientMemory (the smaller buffer was full) may become HTTPPartialResponse.",
  "every history of building calls, request, response, transport, clock, parser and every pair of buffer sizes",
  "It compares all pairs of buffer sizes over all histories; a test fixes the sizes.",
  a(S,"HTTPClient_Send","HTTPClient_ReceiveAndParseHttpResponse","HTTPClient_AddHeader","HTTPClient_InitializeRequestHeaders","HTTPClient_AddRangeHeader"))

p("The size learnt with HEAD is the size of the file",
  "A server answers a HEAD request for a path with one Content-Length header that states the length of the file, and answers range requests. An application sends HEAD, takes contentLength from the response object, and downloads that many bytes in pieces of k bytes with range requests, with the same request and response object. Whatever headers and framing the server chooses, however the transport cuts up what is sent and received and whatever was in the buffers, no call fails (the HEAD call does not wait for a body) and the result is the file, byte for byte.",
  "every file of at most 2^31 bytes, path, host, flags, piece size, server of this kind, transport, clock, initial content of buffers and memory",
  "It is about sequences of exchanges of any length with any server of this kind and any cutting of the streams.",
  a(S,"HTTPClient_Send","HTTPClient_AddRangeHeader","HTTPClient_InitializeRequestHeaders","httpParserOnHeadersCompleteCallback"))

p("What is stored with PUT is what is downloaded again",
  "A server replaces a file by the body of a PUT request, taking the body to be as long as the Content-Length header says, and answers range requests for what is stored. An application sends the bytes of a buffer with PUT, leaving the Content-Length header to HTTPClient_Send, and downloads them again piece by piece with the same request and response object. Whatever was stored before, whatever framing and headers the server chooses, however the transport cuts up what is sent and received and whatever was in the buffers, no call fails and the application gets back exactly the bytes it sent.",
  "every body of 1 to 2^31-1 bytes, path, host, flags, pieces, server of this kind, transport, clock, initial content of buffers and memory; the response buffer may even be the buffer of the body",
  "It is about sequences of exchanges of any length with any server of this kind and any cutting of the streams.",
  a(S,"HTTPClient_Send","HTTPClient_AddRangeHeader","HTTPClient_InitializeRequestHeaders","addContentLengthHeader"))

p("A slow peer is waited for",
  "The transport may accept or deliver nothing as often as it likes: as long as the peer never lets a retry timeout (HTTP_SEND_RETRY_TIMEOUT_MS, HTTP_RECV_RETRY_TIMEOUT_MS) pass without accepting or delivering something, HTTPClient_Send never gives up. For a request and a well-formed response that fit in their buffers it returns HTTPSuccess, the peer has got exactly the request, and status, headers and body are reported as the peer sent them. The clock may wrap around at any time.",
  "every request, body, flags, well-formed response, configuration of timeouts, cutting of both streams, pattern of fruitless transport calls within the timeouts, clock and start time",
  "It is about all schedules of a peer, with arbitrarily many fruitless calls, and about a 32-bit clock at any reading.",
  a(S,"HTTPClient_Send","HTTPClient_SendHttpData","HTTPClient_ReceiveAndParseHttpResponse"))

p("It does not matter what time it is",
  "Only differences of clock readings matter to HTTPClient_Send: with a clock that is ahead by any constant (modulo 2^32, so that it may wrap around at another moment or not at all) and all else the same, the transport and the header callback see the same calls with the same data in the same order, the buffers and the environment end the same, and the call returns the same status and objects.",
  "every clock, offset, parameter (valid or not), object, transport, parser, buffer content, and run of any length, also one that has not ended",
  "It compares pairs of runs for all 2^32 offsets and all schedules; a wrap-around bug shows only for offsets near the end of the range, after 49 days of uptime.",
  a(S,"HTTPClient_Send","HTTPClient_SendHttpData","HTTPClient_ReceiveAndParseHttpResponse"))

p("The application can tell whether the connection stays open",
  "From what HTTPClient_Send reports about a response (the response object with HTTP_RESPONSE_CONNECTION_CLOSE_FLAG and HTTP_RESPONSE_CONNECTION_KEEP_ALIVE_FLAG, the headers given to the callback, the body) the application can tell whether the server will close the connection after it, that is, whether it can send the next request over the same connection.",
  "every well-formed response, HTTP/1.0 or HTTP/1.1, every fragmentation",
  "It asks for a decision procedure that is right for all responses; a counterexample is a pair of responses with the same report.",
  a(S,"HTTPClient_Send","httpParserOnHeadersCompleteCallback"))

p("After a status that is not in the documented list the connection can be used again",
  "The documentation of HTTPClient_Send names six statuses (the HTTPSecurityAlert ones) after which the application should close the connection. After any other status the application can send the next request over the same connection, and when that call returns HTTPSuccess it has returned the server's response to that request.",
  "every pair of requests and well-formed responses, every buffer size, every fragmentation and timing",
  "Whether bytes of one response remain in the connection depends on the sizes, the fragmentation and the timing; what they are taken for, on their content.",
  a(S,"HTTPClient_Send")+a(H,"HTTPClient_Send"))

p("The body can be held back until the server consents",
  "An application that sends the headers of a request with HTTPClient_SendHttpHeaders, receives a response with HTTPClient_ReceiveAndParseHttpResponse, and only if that is 100 (Continue) sends the body with HTTPClient_SendHttpData and receives again, gets the server's final response, with HTTPSuccess; the server gets exactly the headers and the body; nothing of the body is sent before the whole 100 response has been received, and none at all if the server answers with another status.",
  "every request, every body in any number of pieces, every 100 response and well-formed final response that fit, every transport that makes progress, every fragmentation",
  "The order of sending and receiving must be right for every fragmentation of both directions.",
  a(S,"HTTPClient_SendHttpHeaders","HTTPClient_SendHttpData","HTTPClient_ReceiveAndParseHttpResponse"))

p("A connection used again only after HTTPSuccess never mixes up responses",
  "Over an unreliable network and a persistent connection, an application that uses the connection for a further request only if HTTPClient_Send returned HTTPSuccess for the one before (and reconnects otherwise) never takes anything for the response to a request that is not: everything a call reports is part of the server's answer to the request of that call, and with HTTPSuccess exactly that answer was received and all of it is reported.",
  "every number of calls, every request and answer, every fragmentation, every failure of the network at any moment, everything the application does between calls",
  "The claim is about all histories of calls and failures over one connection.",
  a(S,"HTTPClient_Send","getFinalResponseStatus"))

p("A response that comes before the whole request was sent is not lost",
  "When a server answers early and takes no more of the request (for instance 413 to a large body), HTTPClient_Send returns HTTPNetworkError without having received anything, and the response can still be obtained: HTTPClient_ReceiveAndParseHttpResponse with the same objects returns HTTPSuccess and reports it, as sent. When the transport accepts the whole request in spite of it, HTTPClient_Send itself reports the response.",
  "every request and body, every well-formed response that fits, every behaviour of the transport's send function (partial sends, errors, timeouts at any byte), every fragmentation of the response",
  "The send may fail at any byte of the headers or the body, in any way.",
  a(S,"HTTPClient_Send","HTTPClient_ReceiveAndParseHttpResponse","HTTPClient_SendHttpData"))

p("Interim responses can be passed over by receiving again",
  "When the server sends any number of interim responses (status 1xx other than 101, e.g. 100 Continue, 103 Early Hints) before the final response, an application that calls HTTPClient_Send and then HTTPClient_ReceiveAndParseHttpResponse as long as the status code is an interim one ends with HTTPSuccess and the final response: its status code, body and header fields as sent, each header field of the interim responses having been reported with the status code of its response, and nothing left over in the connection.",
  "every number and content of interim responses, every well-formed final response that fits, every request, every fragmentation on either side (also several responses in one receive call), the response in its own buffer or, unless the request is HEAD, in the request's",
  "Which responses arrive in the same receive call decides what each call returns; it depends on the network.",
  a(S,"HTTPClient_Send","HTTPClient_ReceiveAndParseHttpResponse"))

p("With one buffer for request and response, the response to HEAD is recognised also after an interim response",
  "The request and the response may have the same buffer. Also then an application that receives again after an interim response gets the final response to a HEAD request with HTTPSuccess.",
  "every HEAD request, every well-formed response, every fragmentation",
  "Only an interim response in a receive call of its own shows the difference.",
  a(S,"HTTPClient_ReceiveAndParseHttpResponse"))

p("A request that has been sent can be sent again",
  "After HTTPClient_Send (whatever it returned, for instance HTTPNetworkError or HTTPNoResponse) the application can send the same request object again, over a new connection, with the same body or another: unless the call returns HTTPNetworkError the server reads what was described, with that body, and the end of the request where the next one begins.",
  "every described request, every pair of bodies and flags, every status of the first call, every transport behaviour, every continuation of the connection",
  "What a server makes of the second request depends on both bodies and on the bytes that follow; the tests compare headers of single calls.",
  a(S,"HTTPClient_Send","addContentLengthHeader")+a(H,"HTTPClient_Send"))

p("A file that changes during the download is never mixed up from two versions",
  "An application downloads a file piece by piece with HTTPClient_InitializeRequestHeaders, HTTPClient_AddRangeHeader and HTTPClient_Send; after each HTTPSuccess with status 206 it looks up ETag and Content-Range with HTTPClient_ReadHeader, begins anew when the tag is not that of the pieces it has, and is finished when it has as many bytes as Content-Range says. Whatever it then takes for the file is one version of the file, whole, byte for byte, and no call faults. Without the comparison of tags this is false.",
  "every family of versions of a file, every sequence of attempts and sizes, each answered from any version (in any order, also back to an earlier one), every point at which sending or receiving fails or stalls, every server whose 206 answers are true (complete or shorter than asked for, any framing, any letter case of names), other statuses with any content, request and response buffer shared or not",
  "When the file changes, and where the network fails, is up to the server and the network; a test can try a few of the interleavings.",
  a(S,"HTTPClient_InitializeRequestHeaders","HTTPClient_AddRangeHeader","HTTPClient_Send","HTTPClient_ReadHeader"))

p("A kept copy that is asked about with its entity tag is never taken for current when it is not",
  "An application keeps a copy of a resource with its entity tag (looked up with HTTPClient_ReadHeader in the response) and asks the server again and again with HTTPClient_InitializeRequestHeaders, HTTPClient_AddHeader(If-None-Match, tag) and HTTPClient_Send, on any connections, with the same objects. After HTTPSuccess with status 200 it replaces its copy by the body, with 304 it goes on using it. Whenever it takes something for current, that is what the server has at that time; no call faults.",
  "every history of versions of the resource (also back to earlier ones), every number of polls, every point at which a connection fails or stalls, every server whose 200 and 304 answers are true (any framing, any letter case), other statuses with any content, request and response buffer shared or not",
  "It depends on when the resource changes and on where connections fail, over any number of exchanges with the same buffers.",
  a(S,"HTTPClient_InitializeRequestHeaders","HTTPClient_AddHeader","HTTPClient_Send","HTTPClient_ReadHeader"))

p("A part of a request is never taken for a request",
  "At every moment of HTTPClient_Send, whatever the transport does and whatever the call returns - or if it never does - a server that reads what the transport has accepted so far either finds no whole request there, or everything has been accepted and it finds exactly the described request with exactly this body. The same for a request with a chunked body sent in pieces with HTTPClient_SendHttpHeaders and HTTPClient_SendHttpData, also while pieces are still missing.",
  "every described request whose framing is left to the library (or chunked), every body, every transport and clock, every moment, every outcome",
  "A connection can break after any byte; the server must not act on the rest.",
  a(S,"HTTPClient_Send","HTTPClient_SendHttpHeaders","HTTPClient_SendHttpData","addContentLengthHeader"))

p("An interrupted upload never spoils the file on the server",
  "An application uploads a file piece by piece with HTTPClient_InitializeRequestHeaders (PATCH), HTTPClient_AddHeader (Upload-Offset: where the piece belongs) and HTTPClient_Send, each over a new connection; after HTTPSuccess with status 204 or 409 it looks up Upload-Offset with HTTPClient_ReadHeader and goes on from there, otherwise it tries again. Whatever fails at whatever byte, and in whatever order and how often the server processes the whole messages it has found on any of the connections, what it has stored is at every time a beginning of the file; and when the server tells the truth and the application believes to be at the end, the server has exactly the file.",
  "every file, every sequence of attempts, every transport, every failure at every byte, every schedule in which the server processes the messages",
  "The server may process a message long after the application has given up that connection, in between messages of later ones.",
  a(S,"HTTPClient_InitializeRequestHeaders","HTTPClient_AddHeader","HTTPClient_Send","HTTPClient_ReadHeader"))

p("An upload over unreliable connections completes when enough of them are reliable",
  "An application uploads a file piece by piece as in C116. On some of the connections nothing fails and the server processes the piece at once and answers how many bytes it has; on the others anything may fail at any byte, and the messages of given up connections may be processed at any later time. When the calls return (C61) and at least as many of the reliable attempts as the file has bytes come immediately after another reliable one (for example, because from some time on all connections are reliable), the application ends up at the end of the file and the server has exactly the file.",
  "every file, every sequence of reliable and unreliable attempts, every transport, every failure at every byte, every schedule in which the server processes the messages",
  "Whether an attempt makes progress depends on what was learnt in the one before and on messages that arrive in between.",
  a(S,"HTTPClient_InitializeRequestHeaders","HTTPClient_AddHeader","HTTPClient_Send","HTTPClient_ReadHeader"))

p("A request with an idempotency key, repeated until confirmed, is carried out exactly once",
  "An application makes the same POST request, with the same body and the same header Idempotency-Key, over one new connection after another until HTTPClient_Send returns HTTPSuccess with a status code 2xx. The server carries out an order when it comes with a key that it has not seen. Whatever fails, at any byte, and whenever and however often the server processes the messages it has found, those of given up connections much later: no call faults, and the server carries out nothing or exactly the order of the application, once, never a part of it. If what the server says is true and the application has the confirmation, the order has been carried out exactly once; and as soon as one attempt is on a connection on which nothing fails, to a server that processes the message and confirms it, and the calls return (C61), the application gets the confirmation.",
  "every key and order, every sequence of attempts, every transport and every failure at every byte, every schedule, duplication and delay in which the server processes the messages",
  "The outcome depends on which byte every connection breaks at, and on when messages of given up connections are processed relative to later attempts.",
  a(S,"HTTPClient_InitializeRequestHeaders","HTTPClient_AddHeader","HTTPClient_Send"))

p("A change written back with If-Match never overwrites what the application has not seen",
  "An application changes a resource on which others write too, from whatever it is, c, to f(c): it reads the resource with its entity tag (HTTPClient_Send, HTTPClient_ReadHeader), writes the new content with If-Match over another connection, and begins again until HTTPClient_Send returns HTTPSuccess with a status code 2xx for the write. The tags are strong, and what the server tells when it is read is true. Whatever fails, at any byte, and whenever and however often the server processes the messages it has found, those of given up connections much later, and whatever others write in between: no call faults; whenever a message of the application changes the resource, the content before is some c and the content after is f(c), so nothing that others have written is lost; and when the application has a true confirmation, this has happened.",
  "every function f, every sequence of rounds, every transport and failure at every byte, every history in which writes of others and duplicated and delayed messages of the application come in any order",
  "The tag and the content come from one response and go into another request; the claim is about every interleaving of other writers and of messages processed late.",
  a(S,"HTTPClient_InitializeRequestHeaders","HTTPClient_AddHeader","HTTPClient_Send","HTTPClient_ReadHeader"))

p("The buffer a request needs can be calculated in advance",
  "For every request that follows the documentation (method, path, host and flags, and any list of added headers and byte ranges), let the size be the number of bytes of the text: request line, documented headers, added headers, blank line. In a buffer of at least that size every call that builds the request succeeds, and the buffer then holds exactly that text; in a buffer that is smaller, be it by one byte, one of the calls returns HTTPInsufficientMemory. Sending it with a body whose Content-Length the library writes needs exactly 18 bytes and one byte for each decimal digit of the length more.",
  "every method, path, host, flags, every list of headers and ranges, every buffer size and contents, every body length up to INT32_MAX",
  "Each call checks for itself whether its line fits, on sums of lengths, before or after taking back the blank line; that the checks of any number of calls add up to one formula, with no byte wasted, is a claim about all lists of calls.",
  a(S,"HTTPClient_InitializeRequestHeaders","HTTPClient_AddHeader","HTTPClient_AddRangeHeader","HTTPClient_SendHttpHeaders"))

p("A request body may lie in the request's own buffer, behind the headers",
  "The body given to HTTPClient_Send may lie anywhere in memory, also in the buffer of the request headers, if it begins at or behind the end of the headers as they are sent: behind the prepared headers and the 18 bytes and one byte for each decimal digit of the body's length that the Content-Length header takes. Then at every moment what the transport has accepted is a prefix of the headers followed by the body as it was before the call, and all of it when sending succeeds, and no read or write leaves the buffers. When no Content-Length is added (HTTP_SEND_DISABLE_CONTENT_LENGTH_FLAG) the body may begin anywhere. The bound is exact: a body that begins one byte sooner is sent with a line feed as its first byte.",
  "every prepared header block, body, place of the body, flags, and every behaviour of the transport and the clock",
  "The library writes into the request buffer while sending; whether it has overwritten the body by the time it reads it depends on where the body lies, to the byte, and on every length involved.",
  a(S,"HTTPClient_SendHttpHeaders","addContentLengthHeader","sendHttpBody","sendHttpRequest","HTTPClient_SendHttpData"))

out=os.path.join(os.path.dirname(os.path.dirname(os.path.abspath(__file__))),"properties.jsonl")
with open(out,"w") as f:
    for x in P: f.write(json.dumps(x)+"\n")
for x in P: print(x["id"],x["title"])

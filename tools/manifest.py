#!/usr/bin/env python3
"""Writes MANIFEST.json. Theorem names are checked by `lake build` through Verif/Audit.lean."""
import json
P="CoreHttp.Props."
C=[]
def c(pid,status,thms,note):
    C.append({"property":pid,"status":status,"theorems":[P+t for t in thms],"note":note})
c("C01","proved",["C01_init_layout"],"")
c("C02","proved",["C02_init_success_iff"],"")
c("C03","proved",["C03_init_independent"],"")
c("C04","proved",["C04_addHeader_appends","C04_addHeader_one_line"],"")
c("C05","proved",["C05_history"],"by induction over the history of calls")
c("C06","proved",["C06_readback"],"independent reader readRequest")
c("C07","proved",["C07_no_injection"],"")
c("C08","partial",["C08_no_injection_partial","C08_injection_iff","C08_refuted"],"False of the code as stated: method and path are copied unchecked; C08_refuted is the counterexample, C08_injection_iff says exactly when the request reads back as documented, the _partial theorem assumes method and path free of CR/LF.")
c("C09","partial",["C09_failed_add_partial","C09_failed_add_exact","C09_unchanged_iff","C09_failed_addRange","C09_refuted"],"False of the code for AddHeader failing with an invalid character (the final blank line is overwritten); proved for every other failure and for AddRangeHeader, and exactly when and how the block changes.")
c("C10","proved",["C10_memory_safe","C10_null_safe"],"sizes countable in size_t; see C11 for sizes that are not")
c("C11","partial",["C11_exact_partial","C11_refuted","C10_memory_safe"],"False of the code for lengths whose sum wraps size_t (C11_refuted, every width of size_t). C11_exact_partial gives the exact condition for every pair of lengths: safe when the total fits in size_t, HTTPInsufficientMemory with nothing changed when the wrapped total exceeds bufferLen, out of bounds otherwise. C10_memory_safe is the guarded version for all request-building functions.")
c("C12","proved",["C12_headersLen_bounded"],"")
c("C13","proved",["C13_insufficient_iff"],"")
c("C14","proved",["C14_range_text"],"")
c("C15","proved",["C15_range_accepted_iff"],"")
c("C16","proved",["C16_decimal_exact","C16_range_scratch","C16_contentLength_scratch"],"")
c("C17","proved",["C17_content_length"],"")
c("C18","proved",["C18_nothing_sent","C18_send"],"")
c("C19","partial",["C19_safe_partial","C19_refuted_overflow","C19_refuted_overrun","C19_refuted_truncated","C19_refuted_wrong_text"],"False of the code for direct callers of HTTPClient_SendHttpHeaders with lengths above INT32_MAX (what happens for each of them is proved: signed overflow, overrun, length modulo 2^32, or the text 0 or a negative number); proved for lengths up to INT32_MAX, which is all HTTPClient_Send lets through.")
c("C20","partial",["C20_resend_partial","C20_session_partial","C20_session_adds","C20_refuted","wireHeaders_twice","C20_resend_exact","C20_resend_limit"],"False of the code when the library adds Content-Length: the second Send adds it again. Proved when it does not; and for every sequence of sends, exactly which blocks go out and when the object is full.")
c("C21","proved",["C21_sent_prefix"],"")
c("C22","proved",["C22_offered_exactly"],"")
c("C23","proved",["C23_errors_reported"],"")
c("C24","proved",["C24_timeout_exact"],"")
c("C25","proved",["C25_terminates","C25_terminates_noclock"],"")
c("C29","proved",["C29_receive_contiguous"],"")
c("C30","proved",["C30_parsed_once"],"")
c("C31","proved",["C31_receive_error"],"")
c("C33","proved",["C33_timeout_exact"],"")
c("C34","proved",["C34_terminates","C34_terminates_noclock"],"")
c("C35","proved",["C35_stops_at_end"],"")
c("C32","partial",["C32_timeout_partial","C32_refuted"],"False of the code: a timeout never gives HTTPNetworkError (C32_refuted, every execution). C32_timeout_partial says what it does give: HTTPNoResponse, HTTPPartialResponse or HTTPSuccess, by whether a message had begun or is complete.")
c("C36","partial",["C36_success_complete_partial","C36_flag_success","C36_refuted"],"False of the code with HTTP_RESPONSE_DO_NOT_PARSE_BODY_FLAG set and an incomplete header section; proved otherwise.")
c("C37","proved",["C37_classified","C37_empty_buffer"],"")
c("C38","proved",["C38_errors_mapped"],"")
c("C39","proved",["C39_headers_reported"],"for parsers without folded header lines")
c("C40","proved",["C40_body_assembled"],"")
c("C41","proved",["C41_only_body_moved","C41_header_section_kept"],"")
c("C42","proved",["C42_locations_inside"],"")
c("C43","partial",["C43_headers_location_partial","C43_refuted"],"False of the code: headersLen depends on the cut (C43_refuted). Proved: exactly what it is.")
c("C44","proved",["C44_fragmentation_independent"],"")
c("C45","partial",["C45_head_no_body_partial","C45_refuted"],"False of the code for methods that merely begin with HEAD; proved otherwise.")
c("C46","proved",["C46_raw_body"],"")
c("C47","partial",["C47_reuse_partial","C47_refuted"],"False of the code for contentLength and areHeadersComplete when the header section is incomplete; everything else proved.")
c("C48","proved",["C48_connection_flags"],"")
c("C49","partial",["C49_content_length_partial","C49_refuted"],"False of the code for lengths that do not fit in size_t; proved for the others.")
c("C50","proved",["C50_shared_buffer","C50_same_traffic"],"Any two response blocks, the request's included; the transport writes what it claims to have received.")
c("C51","partial",["C51_one_response_partial","C51_refuted","C51_joined","C51_cut"],"False of the code when a further message arrives in the same receive call; proved: nothing is requested after the end of the message; and, for every list of whole responses arriving together, exactly which mixture of them is reported (C51_joined), and the status returned when a further one is cut off (C51_cut).")
c("C52","partial",["C52_trailers_partial","C52_refuted"],"False of the code for the last trailer; proved for all others.")
c("C59","proved",["C59_no_early_stop","C59_no_early_success"],"")
c("C26","proved",["C26_order","send_composition"],"")
c("C27","proved",["C27_invalid","C27_exact"],"")
c("C28","proved",["C28_documented"],"")
c("C60","proved",["C60_safe"],"")
c("C61","proved",["C61_terminates","C61_terminates_noclock"],"")
c("C53","partial",["C53_partial","C53_headers_only","C53_refuted"],"False of the code when the body, read as a further response, has the header; proved: a header of the header section is always found first, and exactness for buffers that end with the header section.")
c("C54","partial",["C54_partial","C54_headers_only","C54_any_parser","C54_trailing_data","C54_refuted"],"False of the code for responses followed by a body: the parser goes on with the body bytes; proved: exactly when each status is returned, and the English claim for buffers that end with the header section.")
c("C55","proved",["C55_safe","C55_invalid"],"")
c("C56","proved",["C56_compare","C56_equivalence","C56_nonletters"],"")
c("C57","proved",["C57_names","C57_injective"],"")
c("C58","proved",["C58_exchange","C58_round_trip","C58_round_trip_receive","C58_peer_receive"],"With the reference parser (Ref/Http.lean) in place of llhttp. Trailer fields are outside this claim (see C52).")
c("C62","proved",["C62_init_invalid","C62_init_valid","C62_addHeader_invalid","C62_addHeader_valid","C62_addRange_invalid"],"")
c("C63","proved",["C63_session","C63_session_exchange","C20_session_adds"],"Sessions of any length; the per-exchange round trip uses the reference parser (Ref/Http.lean).")
c("C64","proved",["C64_request_on_wire","C64_end_to_end"],"With the reference parser (Ref/Http.lean) in place of llhttp for the response.")
c("C65","proved",["C65_lookup_after_exchange","C65_lookup"],"With the reference parser (Ref/Http.lean) in place of llhttp.")
c("C66","proved",["C66_exchange","C66_peer_receive","C66_headers_only_receive"],"With the reference parser (Ref/Http.lean) in place of llhttp.")
c("C67","proved",["C67_exchange","C67_peer_receive","C67_extraneous_receive"],"With the reference parser (Ref/Http.lean) in place of llhttp. The excluded case (a further response on a connection that stays open) is C51_refuted.")
c("C68","proved",["C68_exchange","C68_peer_receive","C68_incomplete_receive"],"With the reference parser (Ref/Http.lean) in place of llhttp. Transport errors are C72.")
c("C69","proved",["C69_exchange","C69_peer_receive","C69_receive"],"With the reference parser (Ref/Http.lean) in place of llhttp, which does nothing when it is given no bytes, as llhttp_execute.")
c("C70","proved",["C70_send_is_three_calls","C70_pieces_sent","C70_exchange"],"The first two for every parser meeting the contract (the first for every parser); the third with the reference parser (Ref/Http.lean) in place of llhttp.")
c("C71","proved",["C71_headers_denoted","C71_headers_denoted_open","C71_receive","C71_until_close"],"With the reference parser (Ref/Http.lean) in place of llhttp. Bodies that end with the connection: without HTTP_RESPONSE_DO_NOT_PARSE_BODY_FLAG.")
c("C72","proved",["C72_network_error","C72_network_error_open","C72_receive","C72_receive_open"],"With the reference parser (Ref/Http.lean) in place of llhttp.")
c("C73","proved",["C73_sendData","C73_receive","C73_send","C73_progress","C73_send_total"],"Time passes only in the functions the application supplies; the library's own computation is taken to be instantaneous. The time spent in callbacks together must leave the 32-bit clock unambiguous.")
c("C74","proved",["C74_footprint","C74_isolation","C74_interference","C74_concurrent"],"Calls interleave as wholes in C74_isolation; in C74_interference and C74_concurrent other threads also run while a call is in its transport, clock or callback. C74_footprint says what a single call reads and changes. In the model a buffer is a block of its own.")
c("C75","proved",["C75_add_header","C75_init","C75_elsewhere","C75_redirect","C75_bound_needed"],"C75_redirect with the reference parser (Ref/Http.lean) in place of llhttp. C75_bound_needed: outside the bounds the claim is false.")
c("C76","proved",["C76_any_overlap"],"")
c("C77","partial",["C77_partial","C77_refuted"],"False of the code: method and path are copied with memcpy, undefined for overlapping memory, and a host in the buffer is overwritten before it is read; proved: what holds when method and path do not overlap the places they are copied to (and C75 for the bounds within which the strings are the ones asked for).")
c("C78","partial",["C78_rejected_partial","C78_history_exact","C78_refuted"],"False of the code: the start of the rejected line stays in the block, and the next line (also Content-Length, so that the body is not taken for one) is joined to it. Proved: exactly what any history makes of the block, and the claim when the bad byte is the first of the name.")
c("C79","partial",["C79_final_partial","C79_interim_is_returned","C79_refuted","C79_refuted_joined","C79_joined"],"False of the code: an interim response that arrives by itself is returned with HTTPSuccess, and the response proper is returned for the next request. Proved: the claim without interim responses; and that every interim response arriving by itself is returned as the response.")
c("C80","partial",["C80_no_body_partial","C80_waits_for_a_body","C80_refuted","C80_refuted_joined"],"False with a parser that follows llhttp's rule (Content-Length decides before the status; llhttp is not in the repository): the application is told HTTPPartialResponse after the receive timeout, because the headers-complete callback asks for no body only for HEAD. Proved: the claim for responses that state no body; and that no other is returned with HTTPSuccess.")
c("C81","partial",["C81_room_partial","C81_room_exact","C81_room_suffices","C81_refuted"],"False of the code: the constant (26) leaves out the CR LF of the line, so bodies of 100 000 000 bytes or more are refused. Proved: the exact room needed for every length, the claim for shorter bodies, and that two more bytes always suffice.")
c("C82","partial",["C82_no_data_partial","C82_exact","C82_refuted","C82_refuted_full"],"False of the code: after data consisting of CR and LF only, even when it fills the buffer, HTTPNoResponse is returned. Proved: HTTPNoResponse exactly when there was no error and all data is CR and LF; the claim when the data does not begin with CR or LF. With the reference parser.")
c("C83","partial",["C83_addHeader","C83_addRange","C83_init_partial","C83_refuted"],"Proved for AddHeader and AddRangeHeader. False of InitializeRequestHeaders, which returns HTTPSecurityAlertInvalidCharacter for a host with CR or LF; proved: only then, or for such a user agent.")
c("C84","partial",["C84_user_agent_partial","C84_refuted_empty","C84_refuted_lineBreak"],"False of the code: with the empty string every such call fails an assertion, with a CR or LF no call succeeds. Proved: the claim for every other string.")
c("C85","partial",["C85_send_partial","C85_refuted_receive","C85_refuted_send"],"Proved for HTTPClient_Send. False of HTTPClient_ReceiveAndParseHttpResponse, HTTPClient_SendHttpData (and SendHttpHeaders, which calls it): they call through the NULL pointer.")
c("C86","partial",["C86_unfolded_partial","C86_located","C86_lookup","C86_refuted"],"False of the code: the callback is given as many bytes as the value has, from where it begins, so line ends are included and the end is missing; HTTPClient_ReadHeader gives the first line only. Proved: exactly this, for every parser that honours the contract; and that every value that was not folded is reported exactly, whatever the other headers are.")
c("C87","partial",["C87_exchange_partial","C87_peer_receive_partial","C87_switching_receive","C87_flag_exchange","C87_refuted"],"False of the code: no field of the response object says how much was received after the response; two calls with different data received end in exactly the same state. Proved: for every 101 response and whatever follows, HTTPSuccess with the response exactly as sent and nothing of the new protocol mixed in; and with HTTP_RESPONSE_DO_NOT_PARSE_BODY_FLAG pBody and bodyLen delimit exactly what was received of it.")
c("C88","partial",["C88_null_partial","C88_unset","C88_refuted"],"False of the code: the onHeaderCallback member of pHeaderParsingCallback is not checked; when it is NULL, every response with a header makes the library call through NULL (C88_refuted). Proved: with that member set (or pHeaderParsingCallback NULL), every combination of NULL pointers is safe, and rejected when the pointer is needed; with that member NULL the call is as without callback structure as long as no header is complete (C88_unset).")
c("C89","proved",["C89_download","C89_any_file"],"The server is specified by the line grammar and the byte-range grammar only (RangeServer). C89_any_file: a concrete server and transport for any file. Until-close framing is not among the answers (see C69).")
c("C90","proved",["C90_resume","C90_exchange","C90_any_file"],"FlakyServer describes environment failures, TrueRanges the server. C90_any_file: a concrete unreliable environment for any file, with a concrete run through five attempts. Without clearing the response object the property is false, see C91.")
c("C91","partial",["C91_reported_partial","C91_refuted"],"False of the code: when sending fails, or receiving before any data, a reused response object still reports the status code and body of the earlier response, with HTTPNetworkError. Proved when the object passed reports no status code and no body.")
c("C92","proved",["C92_fetch","C92_any_file"],"SizedServer is stated with the line, byte-range and Content-Range grammars only. C92_any_file: a concrete server and transport for any file.")
c("C93","proved",["C93_framing"],"readMessage (Spec/Framing) is an independent RFC 9112 request reader that refuses ambiguous framing. Room for the Content-Length line is a hypothesis (C18 says what happens otherwise).")
c("C94","proved",["C94_chunked_sent","C94_chunked_upload"],"The server's dechunking (readChunked) is independent of the client's; no trailer fields.")
c("C95","proved",["C95_connection"],"Sessions as in C63. Without a fresh description the Content-Length lines accumulate: that is C20.")
c("C96","proved",["C96_follow","C96_chain"],"SiteServer and LeadsTo are stated with the line grammar only. C96_chain: a concrete site with chains of up to 60 redirects.")
c("C97","proved",["C97_recovers","C97_any_file"],"CallsReturn is the hypothesis of C61. C97_any_file: a concrete environment, any file, any sequence of attempts that break after any numbers of calls.")
c("C98","proved",["C98_first_body","C98_bodyAt","C98_receive","C98_until_close","C98_body_place","C98_body_place_open"],"C98_first_body is for every parser that keeps the contract; the others use the reference parser. C98_bodyAt: the specified position holds the first byte of the body.")
c("C99","proved",["C99_build","C99_send","C99_sendData","C99_receive","C99_readHeader"],"C99_build is for whole histories of building calls, including rejected ones. The receive function is assumed to fill exactly the bytes it reports (RecvFills), as the transport interface requires. ReadHeader's result does depend on buffer contents behind the response: that is finding C54.")
c("C100","proved",["C100_build","C100_send","C100_receive"],"C100_receive is for parsers that do not depend on how their input is cut (ChunkFree), like the reference parser.")
c("C101","proved",["C101_head_then_download","C101_any_file"],"Parser: the reference parser. C101_any_file is an instance with a concrete server for every file.")
c("C102","proved",["C102_store_then_download","C102_any_file"],"Parser: the reference parser. C102_any_file is an instance with a concrete server for every body.")
c("C103","proved",["C103_slow_receive","C103_slow_exchange"],"Parser: the reference parser. The application supplies the clock (without one any fruitless call ends the exchange: C24, C33).")
c("C104","proved",["C104_time_of_day","C104_same_traffic"],"No assumption on parser, transport or parameters.")
c("C105","partial",["C105_refuted","C105_flags_partial","C105_by_version"],"False: the HTTP version is not reported, and without a Connection header HTTP/1.0 closes while HTTP/1.1 does not. Proved: with HTTP/1.1 the close flag tells exactly; with HTTP/1.0 the two flags do; and exactly for both if the application looks at the version at the start of the response buffer.")
c("C106","partial",["C106_refuted","C106_refuted_late","C106_refuted_paused","C106_success_partial"],"False for HTTPInsufficientMemory, HTTPNoResponse and HTTPPartialResponse, which are not in the list: the rest of the first response (or all of it) is taken for the response to the second request; an author of part of the first page can so forge the second response. Proved: with a cooperative peer nothing is left over after HTTPSuccess, and exactly the bytes beyond the buffer are left after HTTPInsufficientMemory. (A session in which every call succeeds: C63.)")
c("C107","proved",["C107_consent","C107_refusal"],"Expect: 100-continue through the step-by-step API. The response buffer must not be the request buffer. (HTTPClient_Send itself cannot do this: C79.)")
c("C108","proved",["C108_session","C108_call"],"The positive counterpart of C106 (which shows that after other statuses, for which the documentation does not ask to close the connection, responses are mixed up). For servers whose answers are delimited by their length or chunked, HTTP_RESPONSE_DO_NOT_PARSE_BODY_FLAG clear.")
c("C109","proved",["C109_early"],"If HTTPClient_Send returns (C25/C61 say when).")
c("C110","proved",["C110_interim_passed_over"],"The way around C79. For HEAD with a shared buffer see C111.")
c("C111","partial",["C111_refuted","C111_shared_partial"],"False: whether the request was HEAD is looked up in the request's buffer at the start of each receiving call, and the first response has overwritten it; the second call waits for a body and returns HTTPPartialResponse. With two buffers: C110. Proved for one buffer: requests other than HEAD.")
c("C112","partial",["C112_refuted","C112_again_partial","C112_never_understood","C112_swallows","C112_lenient"],"False of the code, because the Content-Length line of the first call stays in the object (C20). Proved: true when the first call added none. Otherwise a strict server never understands a second request with a body (C112_never_understood), and takes the start of the next request for the body of one without (C112_swallows); what lenient servers read: C112_lenient. Describing the request afresh: C95.")
c("C113","proved",["C113_one_version","C113_any_files","C113_unchecked"],"Safety; that a download of a file that does not change completes is C89, C92 and C97.")
c("C114","proved",["C114_current","C114_any_polls"],"")
c("C115","proved",["C115_whole","C115_chunked"],"Completes C93, C94 and C95, which leave out calls that return HTTPNetworkError.")
c("C116","proved",["C116_upload","C116_any_tries"],"The safety part needs nothing of the responses: they may be anything.")
c("C117","proved",["C117_completes","C117_count","C117_any_tries"],"Needs room in the header buffer for the request with Upload-Offset and Content-Length.")
c("C118","proved",["C118_once","C118_done","C118_any_shots"],"The key is non-empty, path, host and key are without CR and LF for the liveness part; needs room in the header buffer for the request with Content-Length.")
c("C119","proved",["C119_no_lost_update"],"With strong tags; f may be applied more than once when a confirmation is lost.")
c("C120","proved",["C120_size_exact","C120_body_exact"],"Sizes for which no size_t computation wraps (C11).")
c("C121","proved",["C121_body_behind_headers","C121_no_content_length","C121_exact","C121_bound_needed"],"About sendHttpRequest, the sending half of HTTPClient_Send, with the body at any offset of any block (Model/SendPtr); the receiving half does not look at the body.")
C.sort(key=lambda x:x["property"])
json.dump({"claims":C},open("/verif/MANIFEST.json","w"),indent=1)
print(len(C))

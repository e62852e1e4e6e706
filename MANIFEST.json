{
 "claims": [
  {
   "property": "C01",
   "status": "proved",
   "theorems": [
    "CoreHttp.Props.C01_init_layout"
   ],
   "note": ""
  },
  {
   "property": "C02",
   "status": "proved",
   "theorems": [
    "CoreHttp.Props.C02_init_success_iff"
   ],
   "note": ""
  },
  {
   "property": "C03",
   "status": "proved",
   "theorems": [
    "CoreHttp.Props.C03_init_independent"
   ],
   "note": ""
  },
  {
   "property": "C04",
   "status": "proved",
   "theorems": [
    "CoreHttp.Props.C04_addHeader_appends",
    "CoreHttp.Props.C04_addHeader_one_line"
   ],
   "note": ""
  },
  {
   "property": "C05",
   "status": "proved",
   "theorems": [
    "CoreHttp.Props.C05_history"
   ],
   "note": "by induction over the history of calls"
  },
  {
   "property": "C06",
   "status": "proved",
   "theorems": [
    "CoreHttp.Props.C06_readback"
   ],
   "note": "independent reader readRequest"
  },
  {
   "property": "C07",
   "status": "proved",
   "theorems": [
    "CoreHttp.Props.C07_no_injection"
   ],
   "note": ""
  },
  {
   "property": "C08",
   "status": "partial",
   "theorems": [
    "CoreHttp.Props.C08_no_injection_partial",
    "CoreHttp.Props.C08_injection_iff",
    "CoreHttp.Props.C08_refuted"
   ],
   "note": "False of the code as stated: method and path are copied unchecked; C08_refuted is the counterexample, C08_injection_iff says exactly when the request reads back as documented, the _partial theorem assumes method and path free of CR/LF."
  },
  {
   "property": "C09",
   "status": "partial",
   "theorems": [
    "CoreHttp.Props.C09_failed_add_partial",
    "CoreHttp.Props.C09_failed_add_exact",
    "CoreHttp.Props.C09_unchanged_iff",
    "CoreHttp.Props.C09_failed_addRange",
    "CoreHttp.Props.C09_refuted"
   ],
   "note": "False of the code for AddHeader failing with an invalid character (the final blank line is overwritten); proved for every other failure and for AddRangeHeader, and exactly when and how the block changes."
  },
  {
   "property": "C10",
   "status": "proved",
   "theorems": [
    "CoreHttp.Props.C10_memory_safe",
    "CoreHttp.Props.C10_null_safe"
   ],
   "note": "sizes countable in size_t; see C11 for sizes that are not"
  },
  {
   "property": "C100",
   "status": "proved",
   "theorems": [
    "CoreHttp.Props.C100_build",
    "CoreHttp.Props.C100_send",
    "CoreHttp.Props.C100_receive"
   ],
   "note": "C100_receive is for parsers that do not depend on how their input is cut (ChunkFree), like the reference parser."
  },
  {
   "property": "C101",
   "status": "proved",
   "theorems": [
    "CoreHttp.Props.C101_head_then_download",
    "CoreHttp.Props.C101_any_file"
   ],
   "note": "Parser: the reference parser. C101_any_file is an instance with a concrete server for every file."
  },
  {
   "property": "C102",
   "status": "proved",
   "theorems": [
    "CoreHttp.Props.C102_store_then_download",
    "CoreHttp.Props.C102_any_file"
   ],
   "note": "Parser: the reference parser. C102_any_file is an instance with a concrete server for every body."
  },
  {
   "property": "C103",
   "status": "proved",
   "theorems": [
    "CoreHttp.Props.C103_slow_receive",
    "CoreHttp.Props.C103_slow_exchange"
   ],
   "note": "Parser: the reference parser. The application supplies the clock (without one any fruitless call ends the exchange: C24, C33)."
  },
  {
   "property": "C104",
   "status": "proved",
   "theorems": [
    "CoreHttp.Props.C104_time_of_day",
    "CoreHttp.Props.C104_same_traffic"
   ],
   "note": "No assumption on parser, transport or parameters."
  },
  {
   "property": "C105",
   "status": "partial",
   "theorems": [
    "CoreHttp.Props.C105_refuted",
    "CoreHttp.Props.C105_flags_partial",
    "CoreHttp.Props.C105_by_version"
   ],
   "note": "False: the HTTP version is not reported, and without a Connection header HTTP/1.0 closes while HTTP/1.1 does not. Proved: with HTTP/1.1 the close flag tells exactly; with HTTP/1.0 the two flags do; and exactly for both if the application looks at the version at the start of the response buffer."
  },
  {
   "property": "C106",
   "status": "partial",
   "theorems": [
    "CoreHttp.Props.C106_refuted",
    "CoreHttp.Props.C106_refuted_late",
    "CoreHttp.Props.C106_refuted_paused",
    "CoreHttp.Props.C106_success_partial"
   ],
   "note": "False for HTTPInsufficientMemory, HTTPNoResponse and HTTPPartialResponse, which are not in the list: the rest of the first response (or all of it) is taken for the response to the second request; an author of part of the first page can so forge the second response. Proved: with a cooperative peer nothing is left over after HTTPSuccess, and exactly the bytes beyond the buffer are left after HTTPInsufficientMemory. (A session in which every call succeeds: C63.)"
  },
  {
   "property": "C107",
   "status": "proved",
   "theorems": [
    "CoreHttp.Props.C107_consent",
    "CoreHttp.Props.C107_refusal"
   ],
   "note": "Expect: 100-continue through the step-by-step API. The response buffer must not be the request buffer. (HTTPClient_Send itself cannot do this: C79.)"
  },
  {
   "property": "C108",
   "status": "proved",
   "theorems": [
    "CoreHttp.Props.C108_session",
    "CoreHttp.Props.C108_call"
   ],
   "note": "The positive counterpart of C106 (which shows that after other statuses, for which the documentation does not ask to close the connection, responses are mixed up). For servers whose answers are delimited by their length or chunked, HTTP_RESPONSE_DO_NOT_PARSE_BODY_FLAG clear."
  },
  {
   "property": "C109",
   "status": "proved",
   "theorems": [
    "CoreHttp.Props.C109_early"
   ],
   "note": "If HTTPClient_Send returns (C25/C61 say when)."
  },
  {
   "property": "C11",
   "status": "partial",
   "theorems": [
    "CoreHttp.Props.C11_exact_partial",
    "CoreHttp.Props.C11_refuted",
    "CoreHttp.Props.C10_memory_safe"
   ],
   "note": "False of the code for lengths whose sum wraps size_t (C11_refuted, every width of size_t). C11_exact_partial gives the exact condition for every pair of lengths: safe when the total fits in size_t, HTTPInsufficientMemory with nothing changed when the wrapped total exceeds bufferLen, out of bounds otherwise. C10_memory_safe is the guarded version for all request-building functions."
  },
  {
   "property": "C110",
   "status": "proved",
   "theorems": [
    "CoreHttp.Props.C110_interim_passed_over"
   ],
   "note": "The way around C79. For HEAD with a shared buffer see C111."
  },
  {
   "property": "C111",
   "status": "partial",
   "theorems": [
    "CoreHttp.Props.C111_refuted",
    "CoreHttp.Props.C111_shared_partial"
   ],
   "note": "False: whether the request was HEAD is looked up in the request's buffer at the start of each receiving call, and the first response has overwritten it; the second call waits for a body and returns HTTPPartialResponse. With two buffers: C110. Proved for one buffer: requests other than HEAD."
  },
  {
   "property": "C112",
   "status": "partial",
   "theorems": [
    "CoreHttp.Props.C112_refuted",
    "CoreHttp.Props.C112_again_partial",
    "CoreHttp.Props.C112_never_understood",
    "CoreHttp.Props.C112_swallows",
    "CoreHttp.Props.C112_lenient"
   ],
   "note": "False of the code, because the Content-Length line of the first call stays in the object (C20). Proved: true when the first call added none. Otherwise a strict server never understands a second request with a body (C112_never_understood), and takes the start of the next request for the body of one without (C112_swallows); what lenient servers read: C112_lenient. Describing the request afresh: C95."
  },
  {
   "property": "C113",
   "status": "proved",
   "theorems": [
    "CoreHttp.Props.C113_one_version",
    "CoreHttp.Props.C113_any_files",
    "CoreHttp.Props.C113_unchecked"
   ],
   "note": "Safety; that a download of a file that does not change completes is C89, C92 and C97."
  },
  {
   "property": "C114",
   "status": "proved",
   "theorems": [
    "CoreHttp.Props.C114_current",
    "CoreHttp.Props.C114_any_polls"
   ],
   "note": ""
  },
  {
   "property": "C115",
   "status": "proved",
   "theorems": [
    "CoreHttp.Props.C115_whole",
    "CoreHttp.Props.C115_chunked"
   ],
   "note": "Completes C93, C94 and C95, which leave out calls that return HTTPNetworkError."
  },
  {
   "property": "C116",
   "status": "proved",
   "theorems": [
    "CoreHttp.Props.C116_upload",
    "CoreHttp.Props.C116_any_tries"
   ],
   "note": "The safety part needs nothing of the responses: they may be anything."
  },
  {
   "property": "C117",
   "status": "proved",
   "theorems": [
    "CoreHttp.Props.C117_completes",
    "CoreHttp.Props.C117_count",
    "CoreHttp.Props.C117_any_tries"
   ],
   "note": "Needs room in the header buffer for the request with Upload-Offset and Content-Length."
  },
  {
   "property": "C118",
   "status": "proved",
   "theorems": [
    "CoreHttp.Props.C118_once",
    "CoreHttp.Props.C118_done",
    "CoreHttp.Props.C118_any_shots"
   ],
   "note": "The key is non-empty, path, host and key are without CR and LF for the liveness part; needs room in the header buffer for the request with Content-Length."
  },
  {
   "property": "C119",
   "status": "proved",
   "theorems": [
    "CoreHttp.Props.C119_no_lost_update"
   ],
   "note": "With strong tags; f may be applied more than once when a confirmation is lost."
  },
  {
   "property": "C12",
   "status": "proved",
   "theorems": [
    "CoreHttp.Props.C12_headersLen_bounded"
   ],
   "note": ""
  },
  {
   "property": "C120",
   "status": "proved",
   "theorems": [
    "CoreHttp.Props.C120_size_exact",
    "CoreHttp.Props.C120_body_exact"
   ],
   "note": "Sizes for which no size_t computation wraps (C11)."
  },
  {
   "property": "C121",
   "status": "proved",
   "theorems": [
    "CoreHttp.Props.C121_body_behind_headers",
    "CoreHttp.Props.C121_no_content_length",
    "CoreHttp.Props.C121_exact",
    "CoreHttp.Props.C121_bound_needed"
   ],
   "note": "About sendHttpRequest, the sending half of HTTPClient_Send, with the body at any offset of any block (Model/SendPtr); the receiving half does not look at the body."
  },
  {
   "property": "C13",
   "status": "proved",
   "theorems": [
    "CoreHttp.Props.C13_insufficient_iff"
   ],
   "note": ""
  },
  {
   "property": "C14",
   "status": "proved",
   "theorems": [
    "CoreHttp.Props.C14_range_text"
   ],
   "note": ""
  },
  {
   "property": "C15",
   "status": "proved",
   "theorems": [
    "CoreHttp.Props.C15_range_accepted_iff"
   ],
   "note": ""
  },
  {
   "property": "C16",
   "status": "proved",
   "theorems": [
    "CoreHttp.Props.C16_decimal_exact",
    "CoreHttp.Props.C16_range_scratch",
    "CoreHttp.Props.C16_contentLength_scratch"
   ],
   "note": ""
  },
  {
   "property": "C17",
   "status": "proved",
   "theorems": [
    "CoreHttp.Props.C17_content_length"
   ],
   "note": ""
  },
  {
   "property": "C18",
   "status": "proved",
   "theorems": [
    "CoreHttp.Props.C18_nothing_sent",
    "CoreHttp.Props.C18_send"
   ],
   "note": ""
  },
  {
   "property": "C19",
   "status": "partial",
   "theorems": [
    "CoreHttp.Props.C19_safe_partial",
    "CoreHttp.Props.C19_refuted_overflow",
    "CoreHttp.Props.C19_refuted_overrun",
    "CoreHttp.Props.C19_refuted_truncated",
    "CoreHttp.Props.C19_refuted_wrong_text"
   ],
   "note": "False of the code for direct callers of HTTPClient_SendHttpHeaders with lengths above INT32_MAX (what happens for each of them is proved: signed overflow, overrun, length modulo 2^32, or the text 0 or a negative number); proved for lengths up to INT32_MAX, which is all HTTPClient_Send lets through."
  },
  {
   "property": "C20",
   "status": "partial",
   "theorems": [
    "CoreHttp.Props.C20_resend_partial",
    "CoreHttp.Props.C20_session_partial",
    "CoreHttp.Props.C20_session_adds",
    "CoreHttp.Props.C20_refuted",
    "CoreHttp.Props.wireHeaders_twice",
    "CoreHttp.Props.C20_resend_exact",
    "CoreHttp.Props.C20_resend_limit"
   ],
   "note": "False of the code when the library adds Content-Length: the second Send adds it again. Proved when it does not; and for every sequence of sends, exactly which blocks go out and when the object is full."
  },
  {
   "property": "C21",
   "status": "proved",
   "theorems": [
    "CoreHttp.Props.C21_sent_prefix"
   ],
   "note": ""
  },
  {
   "property": "C22",
   "status": "proved",
   "theorems": [
    "CoreHttp.Props.C22_offered_exactly"
   ],
   "note": ""
  },
  {
   "property": "C23",
   "status": "proved",
   "theorems": [
    "CoreHttp.Props.C23_errors_reported"
   ],
   "note": ""
  },
  {
   "property": "C24",
   "status": "proved",
   "theorems": [
    "CoreHttp.Props.C24_timeout_exact"
   ],
   "note": ""
  },
  {
   "property": "C25",
   "status": "proved",
   "theorems": [
    "CoreHttp.Props.C25_terminates",
    "CoreHttp.Props.C25_terminates_noclock"
   ],
   "note": ""
  },
  {
   "property": "C26",
   "status": "proved",
   "theorems": [
    "CoreHttp.Props.C26_order",
    "CoreHttp.Props.send_composition"
   ],
   "note": ""
  },
  {
   "property": "C27",
   "status": "proved",
   "theorems": [
    "CoreHttp.Props.C27_invalid",
    "CoreHttp.Props.C27_exact"
   ],
   "note": ""
  },
  {
   "property": "C28",
   "status": "proved",
   "theorems": [
    "CoreHttp.Props.C28_documented"
   ],
   "note": ""
  },
  {
   "property": "C29",
   "status": "proved",
   "theorems": [
    "CoreHttp.Props.C29_receive_contiguous"
   ],
   "note": ""
  },
  {
   "property": "C30",
   "status": "proved",
   "theorems": [
    "CoreHttp.Props.C30_parsed_once"
   ],
   "note": ""
  },
  {
   "property": "C31",
   "status": "proved",
   "theorems": [
    "CoreHttp.Props.C31_receive_error"
   ],
   "note": ""
  },
  {
   "property": "C32",
   "status": "partial",
   "theorems": [
    "CoreHttp.Props.C32_timeout_partial",
    "CoreHttp.Props.C32_refuted"
   ],
   "note": "False of the code: a timeout never gives HTTPNetworkError (C32_refuted, every execution). C32_timeout_partial says what it does give: HTTPNoResponse, HTTPPartialResponse or HTTPSuccess, by whether a message had begun or is complete."
  },
  {
   "property": "C33",
   "status": "proved",
   "theorems": [
    "CoreHttp.Props.C33_timeout_exact"
   ],
   "note": ""
  },
  {
   "property": "C34",
   "status": "proved",
   "theorems": [
    "CoreHttp.Props.C34_terminates",
    "CoreHttp.Props.C34_terminates_noclock"
   ],
   "note": ""
  },
  {
   "property": "C35",
   "status": "proved",
   "theorems": [
    "CoreHttp.Props.C35_stops_at_end"
   ],
   "note": ""
  },
  {
   "property": "C36",
   "status": "partial",
   "theorems": [
    "CoreHttp.Props.C36_success_complete_partial",
    "CoreHttp.Props.C36_flag_success",
    "CoreHttp.Props.C36_refuted"
   ],
   "note": "False of the code with HTTP_RESPONSE_DO_NOT_PARSE_BODY_FLAG set and an incomplete header section; proved otherwise."
  },
  {
   "property": "C37",
   "status": "proved",
   "theorems": [
    "CoreHttp.Props.C37_classified",
    "CoreHttp.Props.C37_empty_buffer"
   ],
   "note": ""
  },
  {
   "property": "C38",
   "status": "proved",
   "theorems": [
    "CoreHttp.Props.C38_errors_mapped"
   ],
   "note": ""
  },
  {
   "property": "C39",
   "status": "proved",
   "theorems": [
    "CoreHttp.Props.C39_headers_reported"
   ],
   "note": "for parsers without folded header lines"
  },
  {
   "property": "C40",
   "status": "proved",
   "theorems": [
    "CoreHttp.Props.C40_body_assembled"
   ],
   "note": ""
  },
  {
   "property": "C41",
   "status": "proved",
   "theorems": [
    "CoreHttp.Props.C41_only_body_moved",
    "CoreHttp.Props.C41_header_section_kept"
   ],
   "note": ""
  },
  {
   "property": "C42",
   "status": "proved",
   "theorems": [
    "CoreHttp.Props.C42_locations_inside"
   ],
   "note": ""
  },
  {
   "property": "C43",
   "status": "partial",
   "theorems": [
    "CoreHttp.Props.C43_headers_location_partial",
    "CoreHttp.Props.C43_refuted"
   ],
   "note": "False of the code: headersLen depends on the cut (C43_refuted). Proved: exactly what it is."
  },
  {
   "property": "C44",
   "status": "proved",
   "theorems": [
    "CoreHttp.Props.C44_fragmentation_independent"
   ],
   "note": ""
  },
  {
   "property": "C45",
   "status": "partial",
   "theorems": [
    "CoreHttp.Props.C45_head_no_body_partial",
    "CoreHttp.Props.C45_refuted"
   ],
   "note": "False of the code for methods that merely begin with HEAD; proved otherwise."
  },
  {
   "property": "C46",
   "status": "proved",
   "theorems": [
    "CoreHttp.Props.C46_raw_body"
   ],
   "note": ""
  },
  {
   "property": "C47",
   "status": "partial",
   "theorems": [
    "CoreHttp.Props.C47_reuse_partial",
    "CoreHttp.Props.C47_refuted"
   ],
   "note": "False of the code for contentLength and areHeadersComplete when the header section is incomplete; everything else proved."
  },
  {
   "property": "C48",
   "status": "proved",
   "theorems": [
    "CoreHttp.Props.C48_connection_flags"
   ],
   "note": ""
  },
  {
   "property": "C49",
   "status": "partial",
   "theorems": [
    "CoreHttp.Props.C49_content_length_partial",
    "CoreHttp.Props.C49_refuted"
   ],
   "note": "False of the code for lengths that do not fit in size_t; proved for the others."
  },
  {
   "property": "C50",
   "status": "proved",
   "theorems": [
    "CoreHttp.Props.C50_shared_buffer",
    "CoreHttp.Props.C50_same_traffic"
   ],
   "note": "Any two response blocks, the request's included; the transport writes what it claims to have received."
  },
  {
   "property": "C51",
   "status": "partial",
   "theorems": [
    "CoreHttp.Props.C51_one_response_partial",
    "CoreHttp.Props.C51_refuted",
    "CoreHttp.Props.C51_joined",
    "CoreHttp.Props.C51_cut"
   ],
   "note": "False of the code when a further message arrives in the same receive call; proved: nothing is requested after the end of the message; and, for every list of whole responses arriving together, exactly which mixture of them is reported (C51_joined), and the status returned when a further one is cut off (C51_cut)."
  },
  {
   "property": "C52",
   "status": "partial",
   "theorems": [
    "CoreHttp.Props.C52_trailers_partial",
    "CoreHttp.Props.C52_refuted"
   ],
   "note": "False of the code for the last trailer; proved for all others."
  },
  {
   "property": "C53",
   "status": "partial",
   "theorems": [
    "CoreHttp.Props.C53_partial",
    "CoreHttp.Props.C53_headers_only",
    "CoreHttp.Props.C53_refuted"
   ],
   "note": "False of the code when the body, read as a further response, has the header; proved: a header of the header section is always found first, and exactness for buffers that end with the header section."
  },
  {
   "property": "C54",
   "status": "partial",
   "theorems": [
    "CoreHttp.Props.C54_partial",
    "CoreHttp.Props.C54_headers_only",
    "CoreHttp.Props.C54_any_parser",
    "CoreHttp.Props.C54_trailing_data",
    "CoreHttp.Props.C54_refuted"
   ],
   "note": "False of the code for responses followed by a body: the parser goes on with the body bytes; proved: exactly when each status is returned, and the English claim for buffers that end with the header section."
  },
  {
   "property": "C55",
   "status": "proved",
   "theorems": [
    "CoreHttp.Props.C55_safe",
    "CoreHttp.Props.C55_invalid"
   ],
   "note": ""
  },
  {
   "property": "C56",
   "status": "proved",
   "theorems": [
    "CoreHttp.Props.C56_compare",
    "CoreHttp.Props.C56_equivalence",
    "CoreHttp.Props.C56_nonletters"
   ],
   "note": ""
  },
  {
   "property": "C57",
   "status": "proved",
   "theorems": [
    "CoreHttp.Props.C57_names",
    "CoreHttp.Props.C57_injective"
   ],
   "note": ""
  },
  {
   "property": "C58",
   "status": "proved",
   "theorems": [
    "CoreHttp.Props.C58_exchange",
    "CoreHttp.Props.C58_round_trip",
    "CoreHttp.Props.C58_round_trip_receive",
    "CoreHttp.Props.C58_peer_receive"
   ],
   "note": "With the reference parser (Ref/Http.lean) in place of llhttp. Trailer fields are outside this claim (see C52)."
  },
  {
   "property": "C59",
   "status": "proved",
   "theorems": [
    "CoreHttp.Props.C59_no_early_stop",
    "CoreHttp.Props.C59_no_early_success"
   ],
   "note": ""
  },
  {
   "property": "C60",
   "status": "proved",
   "theorems": [
    "CoreHttp.Props.C60_safe"
   ],
   "note": ""
  },
  {
   "property": "C61",
   "status": "proved",
   "theorems": [
    "CoreHttp.Props.C61_terminates",
    "CoreHttp.Props.C61_terminates_noclock"
   ],
   "note": ""
  },
  {
   "property": "C62",
   "status": "proved",
   "theorems": [
    "CoreHttp.Props.C62_init_invalid",
    "CoreHttp.Props.C62_init_valid",
    "CoreHttp.Props.C62_addHeader_invalid",
    "CoreHttp.Props.C62_addHeader_valid",
    "CoreHttp.Props.C62_addRange_invalid"
   ],
   "note": ""
  },
  {
   "property": "C63",
   "status": "proved",
   "theorems": [
    "CoreHttp.Props.C63_session",
    "CoreHttp.Props.C63_session_exchange",
    "CoreHttp.Props.C20_session_adds"
   ],
   "note": "Sessions of any length; the per-exchange round trip uses the reference parser (Ref/Http.lean)."
  },
  {
   "property": "C64",
   "status": "proved",
   "theorems": [
    "CoreHttp.Props.C64_request_on_wire",
    "CoreHttp.Props.C64_end_to_end"
   ],
   "note": "With the reference parser (Ref/Http.lean) in place of llhttp for the response."
  },
  {
   "property": "C65",
   "status": "proved",
   "theorems": [
    "CoreHttp.Props.C65_lookup_after_exchange",
    "CoreHttp.Props.C65_lookup"
   ],
   "note": "With the reference parser (Ref/Http.lean) in place of llhttp."
  },
  {
   "property": "C66",
   "status": "proved",
   "theorems": [
    "CoreHttp.Props.C66_exchange",
    "CoreHttp.Props.C66_peer_receive",
    "CoreHttp.Props.C66_headers_only_receive"
   ],
   "note": "With the reference parser (Ref/Http.lean) in place of llhttp."
  },
  {
   "property": "C67",
   "status": "proved",
   "theorems": [
    "CoreHttp.Props.C67_exchange",
    "CoreHttp.Props.C67_peer_receive",
    "CoreHttp.Props.C67_extraneous_receive"
   ],
   "note": "With the reference parser (Ref/Http.lean) in place of llhttp. The excluded case (a further response on a connection that stays open) is C51_refuted."
  },
  {
   "property": "C68",
   "status": "proved",
   "theorems": [
    "CoreHttp.Props.C68_exchange",
    "CoreHttp.Props.C68_peer_receive",
    "CoreHttp.Props.C68_incomplete_receive"
   ],
   "note": "With the reference parser (Ref/Http.lean) in place of llhttp. Transport errors are C72."
  },
  {
   "property": "C69",
   "status": "proved",
   "theorems": [
    "CoreHttp.Props.C69_exchange",
    "CoreHttp.Props.C69_peer_receive",
    "CoreHttp.Props.C69_receive"
   ],
   "note": "With the reference parser (Ref/Http.lean) in place of llhttp, which does nothing when it is given no bytes, as llhttp_execute."
  },
  {
   "property": "C70",
   "status": "proved",
   "theorems": [
    "CoreHttp.Props.C70_send_is_three_calls",
    "CoreHttp.Props.C70_pieces_sent",
    "CoreHttp.Props.C70_exchange"
   ],
   "note": "The first two for every parser meeting the contract (the first for every parser); the third with the reference parser (Ref/Http.lean) in place of llhttp."
  },
  {
   "property": "C71",
   "status": "proved",
   "theorems": [
    "CoreHttp.Props.C71_headers_denoted",
    "CoreHttp.Props.C71_headers_denoted_open",
    "CoreHttp.Props.C71_receive",
    "CoreHttp.Props.C71_until_close"
   ],
   "note": "With the reference parser (Ref/Http.lean) in place of llhttp. Bodies that end with the connection: without HTTP_RESPONSE_DO_NOT_PARSE_BODY_FLAG."
  },
  {
   "property": "C72",
   "status": "proved",
   "theorems": [
    "CoreHttp.Props.C72_network_error",
    "CoreHttp.Props.C72_network_error_open",
    "CoreHttp.Props.C72_receive",
    "CoreHttp.Props.C72_receive_open"
   ],
   "note": "With the reference parser (Ref/Http.lean) in place of llhttp."
  },
  {
   "property": "C73",
   "status": "proved",
   "theorems": [
    "CoreHttp.Props.C73_sendData",
    "CoreHttp.Props.C73_receive",
    "CoreHttp.Props.C73_send",
    "CoreHttp.Props.C73_progress",
    "CoreHttp.Props.C73_send_total"
   ],
   "note": "Time passes only in the functions the application supplies; the library's own computation is taken to be instantaneous. The time spent in callbacks together must leave the 32-bit clock unambiguous."
  },
  {
   "property": "C74",
   "status": "proved",
   "theorems": [
    "CoreHttp.Props.C74_footprint",
    "CoreHttp.Props.C74_isolation",
    "CoreHttp.Props.C74_interference",
    "CoreHttp.Props.C74_concurrent"
   ],
   "note": "Calls interleave as wholes in C74_isolation; in C74_interference and C74_concurrent other threads also run while a call is in its transport, clock or callback. C74_footprint says what a single call reads and changes. In the model a buffer is a block of its own."
  },
  {
   "property": "C75",
   "status": "proved",
   "theorems": [
    "CoreHttp.Props.C75_add_header",
    "CoreHttp.Props.C75_init",
    "CoreHttp.Props.C75_elsewhere",
    "CoreHttp.Props.C75_redirect",
    "CoreHttp.Props.C75_bound_needed"
   ],
   "note": "C75_redirect with the reference parser (Ref/Http.lean) in place of llhttp. C75_bound_needed: outside the bounds the claim is false."
  },
  {
   "property": "C76",
   "status": "proved",
   "theorems": [
    "CoreHttp.Props.C76_any_overlap"
   ],
   "note": ""
  },
  {
   "property": "C77",
   "status": "partial",
   "theorems": [
    "CoreHttp.Props.C77_partial",
    "CoreHttp.Props.C77_refuted"
   ],
   "note": "False of the code: method and path are copied with memcpy, undefined for overlapping memory, and a host in the buffer is overwritten before it is read; proved: what holds when method and path do not overlap the places they are copied to (and C75 for the bounds within which the strings are the ones asked for)."
  },
  {
   "property": "C78",
   "status": "partial",
   "theorems": [
    "CoreHttp.Props.C78_rejected_partial",
    "CoreHttp.Props.C78_history_exact",
    "CoreHttp.Props.C78_refuted"
   ],
   "note": "False of the code: the start of the rejected line stays in the block, and the next line (also Content-Length, so that the body is not taken for one) is joined to it. Proved: exactly what any history makes of the block, and the claim when the bad byte is the first of the name."
  },
  {
   "property": "C79",
   "status": "partial",
   "theorems": [
    "CoreHttp.Props.C79_final_partial",
    "CoreHttp.Props.C79_interim_is_returned",
    "CoreHttp.Props.C79_refuted",
    "CoreHttp.Props.C79_refuted_joined",
    "CoreHttp.Props.C79_joined"
   ],
   "note": "False of the code: an interim response that arrives by itself is returned with HTTPSuccess, and the response proper is returned for the next request. Proved: the claim without interim responses; and that every interim response arriving by itself is returned as the response."
  },
  {
   "property": "C80",
   "status": "partial",
   "theorems": [
    "CoreHttp.Props.C80_no_body_partial",
    "CoreHttp.Props.C80_waits_for_a_body",
    "CoreHttp.Props.C80_refuted",
    "CoreHttp.Props.C80_refuted_joined"
   ],
   "note": "False with a parser that follows llhttp's rule (Content-Length decides before the status; llhttp is not in the repository): the application is told HTTPPartialResponse after the receive timeout, because the headers-complete callback asks for no body only for HEAD. Proved: the claim for responses that state no body; and that no other is returned with HTTPSuccess."
  },
  {
   "property": "C81",
   "status": "partial",
   "theorems": [
    "CoreHttp.Props.C81_room_partial",
    "CoreHttp.Props.C81_room_exact",
    "CoreHttp.Props.C81_room_suffices",
    "CoreHttp.Props.C81_refuted"
   ],
   "note": "False of the code: the constant (26) leaves out the CR LF of the line, so bodies of 100 000 000 bytes or more are refused. Proved: the exact room needed for every length, the claim for shorter bodies, and that two more bytes always suffice."
  },
  {
   "property": "C82",
   "status": "partial",
   "theorems": [
    "CoreHttp.Props.C82_no_data_partial",
    "CoreHttp.Props.C82_exact",
    "CoreHttp.Props.C82_refuted",
    "CoreHttp.Props.C82_refuted_full"
   ],
   "note": "False of the code: after data consisting of CR and LF only, even when it fills the buffer, HTTPNoResponse is returned. Proved: HTTPNoResponse exactly when there was no error and all data is CR and LF; the claim when the data does not begin with CR or LF. With the reference parser."
  },
  {
   "property": "C83",
   "status": "partial",
   "theorems": [
    "CoreHttp.Props.C83_addHeader",
    "CoreHttp.Props.C83_addRange",
    "CoreHttp.Props.C83_init_partial",
    "CoreHttp.Props.C83_refuted"
   ],
   "note": "Proved for AddHeader and AddRangeHeader. False of InitializeRequestHeaders, which returns HTTPSecurityAlertInvalidCharacter for a host with CR or LF; proved: only then, or for such a user agent."
  },
  {
   "property": "C84",
   "status": "partial",
   "theorems": [
    "CoreHttp.Props.C84_user_agent_partial",
    "CoreHttp.Props.C84_refuted_empty",
    "CoreHttp.Props.C84_refuted_lineBreak"
   ],
   "note": "False of the code: with the empty string every such call fails an assertion, with a CR or LF no call succeeds. Proved: the claim for every other string."
  },
  {
   "property": "C85",
   "status": "partial",
   "theorems": [
    "CoreHttp.Props.C85_send_partial",
    "CoreHttp.Props.C85_refuted_receive",
    "CoreHttp.Props.C85_refuted_send"
   ],
   "note": "Proved for HTTPClient_Send. False of HTTPClient_ReceiveAndParseHttpResponse, HTTPClient_SendHttpData (and SendHttpHeaders, which calls it): they call through the NULL pointer."
  },
  {
   "property": "C86",
   "status": "partial",
   "theorems": [
    "CoreHttp.Props.C86_unfolded_partial",
    "CoreHttp.Props.C86_located",
    "CoreHttp.Props.C86_lookup",
    "CoreHttp.Props.C86_refuted"
   ],
   "note": "False of the code: the callback is given as many bytes as the value has, from where it begins, so line ends are included and the end is missing; HTTPClient_ReadHeader gives the first line only. Proved: exactly this, for every parser that honours the contract; and that every value that was not folded is reported exactly, whatever the other headers are."
  },
  {
   "property": "C87",
   "status": "partial",
   "theorems": [
    "CoreHttp.Props.C87_exchange_partial",
    "CoreHttp.Props.C87_peer_receive_partial",
    "CoreHttp.Props.C87_switching_receive",
    "CoreHttp.Props.C87_flag_exchange",
    "CoreHttp.Props.C87_refuted"
   ],
   "note": "False of the code: no field of the response object says how much was received after the response; two calls with different data received end in exactly the same state. Proved: for every 101 response and whatever follows, HTTPSuccess with the response exactly as sent and nothing of the new protocol mixed in; and with HTTP_RESPONSE_DO_NOT_PARSE_BODY_FLAG pBody and bodyLen delimit exactly what was received of it."
  },
  {
   "property": "C88",
   "status": "partial",
   "theorems": [
    "CoreHttp.Props.C88_null_partial",
    "CoreHttp.Props.C88_unset",
    "CoreHttp.Props.C88_refuted"
   ],
   "note": "False of the code: the onHeaderCallback member of pHeaderParsingCallback is not checked; when it is NULL, every response with a header makes the library call through NULL (C88_refuted). Proved: with that member set (or pHeaderParsingCallback NULL), every combination of NULL pointers is safe, and rejected when the pointer is needed; with that member NULL the call is as without callback structure as long as no header is complete (C88_unset)."
  },
  {
   "property": "C89",
   "status": "proved",
   "theorems": [
    "CoreHttp.Props.C89_download",
    "CoreHttp.Props.C89_any_file"
   ],
   "note": "The server is specified by the line grammar and the byte-range grammar only (RangeServer). C89_any_file: a concrete server and transport for any file. Until-close framing is not among the answers (see C69)."
  },
  {
   "property": "C90",
   "status": "proved",
   "theorems": [
    "CoreHttp.Props.C90_resume",
    "CoreHttp.Props.C90_exchange",
    "CoreHttp.Props.C90_any_file"
   ],
   "note": "FlakyServer describes environment failures, TrueRanges the server. C90_any_file: a concrete unreliable environment for any file, with a concrete run through five attempts. Without clearing the response object the property is false, see C91."
  },
  {
   "property": "C91",
   "status": "partial",
   "theorems": [
    "CoreHttp.Props.C91_reported_partial",
    "CoreHttp.Props.C91_refuted"
   ],
   "note": "False of the code: when sending fails, or receiving before any data, a reused response object still reports the status code and body of the earlier response, with HTTPNetworkError. Proved when the object passed reports no status code and no body."
  },
  {
   "property": "C92",
   "status": "proved",
   "theorems": [
    "CoreHttp.Props.C92_fetch",
    "CoreHttp.Props.C92_any_file"
   ],
   "note": "SizedServer is stated with the line, byte-range and Content-Range grammars only. C92_any_file: a concrete server and transport for any file."
  },
  {
   "property": "C93",
   "status": "proved",
   "theorems": [
    "CoreHttp.Props.C93_framing"
   ],
   "note": "readMessage (Spec/Framing) is an independent RFC 9112 request reader that refuses ambiguous framing. Room for the Content-Length line is a hypothesis (C18 says what happens otherwise)."
  },
  {
   "property": "C94",
   "status": "proved",
   "theorems": [
    "CoreHttp.Props.C94_chunked_sent",
    "CoreHttp.Props.C94_chunked_upload"
   ],
   "note": "The server's dechunking (readChunked) is independent of the client's; no trailer fields."
  },
  {
   "property": "C95",
   "status": "proved",
   "theorems": [
    "CoreHttp.Props.C95_connection"
   ],
   "note": "Sessions as in C63. Without a fresh description the Content-Length lines accumulate: that is C20."
  },
  {
   "property": "C96",
   "status": "proved",
   "theorems": [
    "CoreHttp.Props.C96_follow",
    "CoreHttp.Props.C96_chain"
   ],
   "note": "SiteServer and LeadsTo are stated with the line grammar only. C96_chain: a concrete site with chains of up to 60 redirects."
  },
  {
   "property": "C97",
   "status": "proved",
   "theorems": [
    "CoreHttp.Props.C97_recovers",
    "CoreHttp.Props.C97_any_file"
   ],
   "note": "CallsReturn is the hypothesis of C61. C97_any_file: a concrete environment, any file, any sequence of attempts that break after any numbers of calls."
  },
  {
   "property": "C98",
   "status": "proved",
   "theorems": [
    "CoreHttp.Props.C98_first_body",
    "CoreHttp.Props.C98_bodyAt",
    "CoreHttp.Props.C98_receive",
    "CoreHttp.Props.C98_until_close",
    "CoreHttp.Props.C98_body_place",
    "CoreHttp.Props.C98_body_place_open"
   ],
   "note": "C98_first_body is for every parser that keeps the contract; the others use the reference parser. C98_bodyAt: the specified position holds the first byte of the body."
  },
  {
   "property": "C99",
   "status": "proved",
   "theorems": [
    "CoreHttp.Props.C99_build",
    "CoreHttp.Props.C99_send",
    "CoreHttp.Props.C99_sendData",
    "CoreHttp.Props.C99_receive",
    "CoreHttp.Props.C99_readHeader"
   ],
   "note": "C99_build is for whole histories of building calls, including rejected ones. The receive function is assumed to fill exactly the bytes it reports (RecvFills), as the transport interface requires. ReadHeader's result does depend on buffer contents behind the response: that is finding C54."
  }
 ]
}
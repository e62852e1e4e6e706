import Verif.Model.Request
import Verif.Model.ReadHeader

/-!
# The repository's unit tests, run on the model: requests and header lookup

Evidence that the model is the program, not part of any proof: each `example` transcribes one test of /repo/test/unit-test/core_http_utest.c, with the
arguments and the expected values of the C test. A wrong transcription of the C code into the model that the C test suite would notice makes this file fail.
-/

namespace CoreHttp.Tests
open CoreHttp

/-- /repo/test/unit-test/core_http_config.h; the default user agent, core_http_config_defaults.h:57; a 64-bit host. -/
def tCfg : Cfg := ⟨64, ascii "my-platform-name", 3, 3⟩

/-- `testBuffer`, 100 bytes (core_http_utest.c:39), beginning with `pre`. -/
def tMem (pre : Bytes) : Mem := fun _ => pre ++ List.replicate (100 - pre.length) 0

/-- Status, headersLen and the first headersLen bytes of the buffer; bufferLen. -/
def tOut : Run (Status × Option ReqHeaders × Mem) → Option (Status × Nat × Bytes × Nat)
  | .ok (st, some h, m) => some (st, h.headersLen, (m 0).take h.headersLen, h.bufferLen)
  | .ok (st, none, _) => some (st, 0, [], 0)
  | _ => none

/-- The expected outcome: status and contents, with a buffer of size `n`. -/
def tExp (st : Status) (s : String) (n : Nat := 100) : Option (Status × Nat × Bytes × Nat) := some (st, (ascii s).length, ascii s, n)

/-- The status only. -/
def tSt (x : Run (Status × Option ReqHeaders × Mem)) : Option Status := (tOut x).map (·.1)

/-! ## HTTPClient_InitializeRequestHeaders -/

/-- setupRequestInfo, core_http_utest.c:438-447. -/
def tInfo : ReqInfo := ⟨some (ascii "GET"), some (ascii "/robots.txt"), some (ascii "amazon.com"), 0⟩

/-- core_http_utest.c:463, test_Http_InitializeRequestHeaders_Happy_Path. -/
example : tOut (HTTPClient_InitializeRequestHeaders tCfg (tMem []) (some ⟨some 0, 100, 0⟩) (some tInfo)) =
    tExp .success "GET /robots.txt HTTP/1.1\r\nUser-Agent: my-platform-name\r\nHost: amazon.com\r\n\r\n" := by decide +kernel

/-- core_http_utest.c:495, test_Http_InitializeRequestHeaders_no_user_agent_flag. -/
example : tOut (HTTPClient_InitializeRequestHeaders tCfg (tMem []) (some ⟨some 0, 100, 0⟩) (some { tInfo with reqFlags := 2 })) =
    tExp .success "GET /robots.txt HTTP/1.1\r\nHost: amazon.com\r\n\r\n" := by decide +kernel

/-- core_http_utest.c:528, test_Http_InitializeRequestHeaders_Invalid_Params. -/
example :
    tSt (HTTPClient_InitializeRequestHeaders tCfg (tMem []) none (some tInfo)) = some .invalidParameter ∧
    tSt (HTTPClient_InitializeRequestHeaders tCfg (tMem []) (some ⟨none, 0, 0⟩) (some tInfo)) = some .invalidParameter ∧
    tSt (HTTPClient_InitializeRequestHeaders tCfg (tMem []) (some ⟨some 0, 100, 0⟩) none) = some .invalidParameter ∧
    tSt (HTTPClient_InitializeRequestHeaders tCfg (tMem []) (some ⟨some 0, 100, 0⟩) (some ⟨none, none, none, 0⟩)) = some .invalidParameter ∧
    tSt (HTTPClient_InitializeRequestHeaders tCfg (tMem []) (some ⟨some 0, 100, 0⟩) (some { tInfo with pHost := none })) = some .invalidParameter ∧
    tSt (HTTPClient_InitializeRequestHeaders tCfg (tMem []) (some ⟨some 0, 100, 0⟩) (some { tInfo with pMethod := some [] })) =
      some .invalidParameter ∧
    tSt (HTTPClient_InitializeRequestHeaders tCfg (tMem []) (some ⟨some 0, 100, 0⟩) (some { tInfo with pHost := some [] })) =
      some .invalidParameter := by decide +kernel

/-- The headers of test_Http_InitializeRequestHeaders_ReqInfo. -/
def tKeepAlive : String := "GET / HTTP/1.1\r\nUser-Agent: my-platform-name\r\nHost: amazon.com\r\nConnection: keep-alive\r\n\r\n"

/-- core_http_utest.c:573, test_Http_InitializeRequestHeaders_ReqInfo: the buffer fits exactly; path NULL, and path of length 0. -/
example :
    tOut (HTTPClient_InitializeRequestHeaders tCfg (tMem []) (some ⟨some 0, (ascii tKeepAlive).length, 0⟩)
      (some { tInfo with pPath := none, reqFlags := 1 })) = tExp .success tKeepAlive (ascii tKeepAlive).length ∧
    tOut (HTTPClient_InitializeRequestHeaders tCfg (tMem []) (some ⟨some 0, (ascii tKeepAlive).length, 0⟩)
      (some { tInfo with pPath := some [], reqFlags := 1 })) = tExp .success tKeepAlive (ascii tKeepAlive).length := by decide +kernel

/-- core_http_utest.c:641, test_Http_InitializeRequestHeaders_Insufficient_Memory: one byte too few for the request line. -/
example : tSt (HTTPClient_InitializeRequestHeaders tCfg (tMem []) (some ⟨some 0, (ascii "GET /robots.txt HTTP/1.1\r\n").length - 1, 0⟩) (some tInfo)) =
    some .insufficientMemory := by decide +kernel

/-! ## HTTPClient_AddHeader -/

/-- HTTP_TEST_HEADER_FIELD, HTTP_TEST_HEADER_VALUE, core_http_utest.c:119-122. -/
def tField : Option Bytes := some (ascii "Authorization")
def tValue : Option Bytes := some (ascii "None")

/-- HTTP_TEST_HEADER_REQUEST_LINE, one header, two headers. -/
def tLine : String := "GET / HTTP/1.1 \r\n"
def tOne : String := "GET / HTTP/1.1 \r\nAuthorization: None\r\n\r\n"
def tTwo : String := "GET / HTTP/1.1 \r\nAuthorization: None\r\nAuthorization: None\r\n\r\n"

/-- The request object over a buffer of `n` bytes holding `s`. -/
def tHdrs (s : String) (n : Nat := 100) : Option ReqHeaders := some ⟨some 0, n, (ascii s).length⟩

/-- core_http_utest.c:667, test_Http_AddHeader_Happy_Path. -/
example : tOut (HTTPClient_AddHeader tCfg (tMem (ascii tLine)) (tHdrs tLine) tField tValue) = tExp .success tOne := by decide +kernel

/-- core_http_utest.c:709, test_Http_AddHeader_Invalid_Params. -/
example :
    tSt (HTTPClient_AddHeader tCfg (tMem []) none tField tValue) = some .invalidParameter ∧
    tSt (HTTPClient_AddHeader tCfg (tMem []) (some ⟨none, 0, 0⟩) tField tValue) = some .invalidParameter ∧
    tSt (HTTPClient_AddHeader tCfg (tMem []) (some ⟨some 0, (ascii tTwo).length, 0⟩) none tValue) = some .invalidParameter ∧
    tSt (HTTPClient_AddHeader tCfg (tMem []) (some ⟨some 0, (ascii tTwo).length, 0⟩) tField none) = some .invalidParameter ∧
    tSt (HTTPClient_AddHeader tCfg (tMem []) (some ⟨some 0, (ascii tTwo).length, 0⟩) (some []) tValue) = some .invalidParameter ∧
    tSt (HTTPClient_AddHeader tCfg (tMem []) (some ⟨some 0, (ascii tTwo).length, 0⟩) tField (some [])) = some .invalidParameter ∧
    tSt (HTTPClient_AddHeader tCfg (tMem []) (some ⟨some 0, (ascii tTwo).length, (ascii tTwo).length + 1⟩) tField tValue) =
      some .invalidParameter := by decide +kernel

/-- core_http_utest.c:764, test_Http_AddHeader_Extra_Header_Sufficient_Memory. -/
example : tOut (HTTPClient_AddHeader tCfg (tMem (ascii tOne)) (tHdrs tOne (ascii tTwo).length) tField tValue) =
    tExp .success tTwo (ascii tTwo).length := by decide +kernel

/-- core_http_utest.c:809, test_Http_AddHeader_Extra_Header_Insufficient_Memory. -/
example : tOut (HTTPClient_AddHeader tCfg (tMem (ascii tOne)) (tHdrs tOne (ascii tOne).length) tField tValue) =
    tExp .insufficientMemory tOne (ascii tOne).length := by decide +kernel

/-- core_http_utest.c:856, test_Http_AddHeader_Single_Header_Insufficient_Memory. -/
example : tSt (HTTPClient_AddHeader tCfg (tMem (ascii tLine)) (tHdrs tLine ((ascii tOne).length - 1)) tField tValue) =
    some .insufficientMemory := by decide +kernel

/-- core_http_utest.c:887, test_Http_AddHeader_Invalid_Fields (headersLen is left at 0). -/
example :
    tSt (HTTPClient_AddHeader tCfg (tMem (ascii tLine)) (some ⟨some 0, 100, 0⟩) (some (ascii "head:er-field")) tValue) = some .invalidCharacter ∧
    tSt (HTTPClient_AddHeader tCfg (tMem (ascii tLine)) (some ⟨some 0, 100, 0⟩) (some (ascii "head\ner-field")) tValue) = some .invalidCharacter ∧
    tSt (HTTPClient_AddHeader tCfg (tMem (ascii tLine)) (some ⟨some 0, 100, 0⟩) (some (ascii "head\rer-field")) tValue) = some .invalidCharacter := by
  decide +kernel

/-- core_http_utest.c:925, test_Http_AddHeader_Invalid_Values: a colon is allowed; line feed and carriage return are not. -/
example :
    tOut (HTTPClient_AddHeader tCfg (tMem (ascii tLine)) (tHdrs tLine) tField (some (ascii "head:er-value"))) =
      tExp .success "GET / HTTP/1.1 \r\nAuthorization: head:er-value\r\n\r\n" ∧
    tSt (HTTPClient_AddHeader tCfg (tMem (ascii "GET / HTTP/1.1 \r\nAuthorization: head:er-value\r\n\r\n"))
      (tHdrs "GET / HTTP/1.1 \r\nAuthorization: head:er-value\r\n\r\n") tField (some (ascii "head\ner-Value"))) = some .invalidCharacter ∧
    tSt (HTTPClient_AddHeader tCfg (tMem (ascii "GET / HTTP/1.1 \r\nAuthorization: head:er-value\r\n\r\n"))
      (tHdrs "GET / HTTP/1.1 \r\nAuthorization: head:er-value\r\n\r\n") tField (some (ascii "head\rer-Value"))) = some .invalidCharacter := by
  decide +kernel

/-! ## HTTPClient_AddRangeHeader -/

/-- core_http_utest.c:985, test_Http_AddRangeHeader_Invalid_Params. -/
example :
    tSt (HTTPClient_AddRangeHeader tCfg (tMem []) none 0 0) = some .invalidParameter ∧
    tSt (HTTPClient_AddRangeHeader tCfg (tMem []) (some ⟨none, 0, 0⟩) 0 0) = some .invalidParameter ∧
    tSt (HTTPClient_AddRangeHeader tCfg (tMem []) (some ⟨some 0, 0, 0⟩) 0 10) = some .insufficientMemory ∧
    tSt (HTTPClient_AddRangeHeader tCfg (tMem []) (some ⟨some 0, 0, 1⟩) 0 10) = some .invalidParameter ∧
    tSt (HTTPClient_AddRangeHeader tCfg (tMem []) (some ⟨some 0, 0, 0⟩) 10 5) = some .invalidParameter ∧
    tSt (HTTPClient_AddRangeHeader tCfg (tMem []) (some ⟨some 0, 0, 0⟩) (-2147483648) (-1)) = some .invalidParameter ∧
    tSt (HTTPClient_AddRangeHeader tCfg (tMem []) (some ⟨some 0, 0, 0⟩) (-10) 0) = some .invalidParameter ∧
    tSt (HTTPClient_AddRangeHeader tCfg (tMem []) (some ⟨some 0, 0, 0⟩) (-50) (-10)) = some .invalidParameter := by decide +kernel

/-- PREEXISTING_HEADER_DATA and PREEXISTING_REQUEST_LINE, core_http_utest.c:43-48. -/
def tPre : String := "POST / HTTP/1.1 \r\nAuthorization: None\r\n\r\n"
def tPreLine : String := "POST / HTTP/1.1 \r\n"

/-- core_http_utest.c:1057, test_Http_AddRangeHeader_Insufficient_Memory: one byte short; headersLen, bufferLen and the first bufferLen bytes of the
buffer are unchanged. -/
example :
    (match HTTPClient_AddRangeHeader tCfg (tMem (ascii tPre))
        (tHdrs tPre ((ascii "POST / HTTP/1.1 \r\nAuthorization: None\r\nRange: bytes=5-10\r\n\r\n").length - 1)) 5 10 with
      | .ok (st, h, m) => some (st, h, m 0)
      | _ => none) =
    some (.insufficientMemory, tHdrs tPre ((ascii "POST / HTTP/1.1 \r\nAuthorization: None\r\nRange: bytes=5-10\r\n\r\n").length - 1), tMem (ascii tPre) 0) := by
  decide +kernel

/-- core_http_utest.c:1100, test_Http_AddRangeHeader_Without_Trailing_Terminator. -/
example : tOut (HTTPClient_AddRangeHeader tCfg (tMem (ascii tPreLine)) (tHdrs tPreLine) 0 0) =
    tExp .success "POST / HTTP/1.1 \r\nRange: bytes=0-0\r\n\r\n" := by decide +kernel

/-- The request with a Range header of the given value. -/
def tRange (v : String) : Option (Status × Nat × Bytes × Nat) :=
  tExp .success ("POST / HTTP/1.1 \r\nAuthorization: None\r\nRange: bytes=" ++ v ++ "\r\n\r\n")

/-- core_http_utest.c:1131, 1183, 1210, 1240, 1268: test_Http_AddRangeHeader_RangeType_File_SubRange, _Entire_File, _All_Bytes_From_RangeStart,
_LastNBytes, test_Http_AddRangeHeader_With_Max_INT32_Range_Values. -/
example : tOut (HTTPClient_AddRangeHeader tCfg (tMem (ascii tPre)) (tHdrs tPre) 0 0) = tRange "0-0" := by decide +kernel
example : tOut (HTTPClient_AddRangeHeader tCfg (tMem (ascii tPre)) (tHdrs tPre) 10 100) = tRange "10-100" := by decide +kernel
example : tOut (HTTPClient_AddRangeHeader tCfg (tMem (ascii tPre)) (tHdrs tPre) 0 (-1)) = tRange "0-" := by decide +kernel
example : tOut (HTTPClient_AddRangeHeader tCfg (tMem (ascii tPre)) (tHdrs tPre) 100 (-1)) = tRange "100-" := by decide +kernel
example : tOut (HTTPClient_AddRangeHeader tCfg (tMem (ascii tPre)) (tHdrs tPre) (-50) (-1)) = tRange "-50" := by decide +kernel
example : tOut (HTTPClient_AddRangeHeader tCfg (tMem (ascii tPre)) (tHdrs tPre) 2147483647 2147483647) = tRange "2147483647-2147483647" := by decide +kernel

/-! ## HTTPClient_ReadHeader -/

/-- The mocked llhttp_execute, parserExecuteExpectationsCb, core_http_utest.c:267-307: it invokes the header-field, header-value and
headers-complete callbacks as configured, checks what the value callback and the headers-complete callback return (the branch taken on another value
ends with another error, which no test expects), and returns the configured error. -/
def tMock (field value : Option (Nat × Nat)) (valueRet : CbRet) (complete : Bool) (er : Errno) : Parser where
  St := Unit
  init := ()
  resume := id
  exec := fun _ _ =>
    let last : PTree Unit := .done er 0 ()
    let wrong : PTree Unit := .done (.other 99) 0 ()
    let c : PTree Unit := if complete then .call (.headersComplete 0 0 false false) (fun r => if r = .noBody then last else wrong) else last
    let v : PTree Unit := match value with
      | some (o, l) => .call (.headerValue o l) (fun r => if r = valueRet then c else wrong)
      | none => c
    match field with
    | some (o, l) => .call (.headerField o l) (fun r => if r = .continue_ then v else wrong)
    | none => v

/-- pTestResponse, pTestResponseEmptyValue and pTestResponseSpecialCharacter, core_http_utest.c:156-178. -/
def tResponse : Bytes := ascii
  "HTTP/1.1 200 OK\r\ntest-header0: test-value0\r\ntest-header1: test-value1\r\ntest-header2: test-value2\r\nheader_not_in_buffer: test-value3\r\n\r\n"
def tResponseEmpty : Bytes := ascii
  "HTTP/1.1 200 OK\r\ntest-header0: test-value0\r\ntest-header1: \r\ntest-header2: test-value2\r\n\r\n"
def tResponseSpecial : Bytes := ascii
  "HTTP/1.1 200 OK\r\ntest-header0: test-value0\r\ntest-header1: test-value1\r\ntest-header2: test|value2\r\nheader{_not_in|buff}: test-value3\r\n\r\n"

/-- `testResponse` over a buffer of `n` bytes. -/
def tResp (n : Nat) : Resp Unit := ⟨some 0, n, none, .null, none, 0, none, 0, 0, 0, 0, 0, 0, 0⟩

/-- A call on the given response bytes; `pValueLoc` and `valueLen` are NULL and 0 before. -/
def tRead (P : Parser) (resp : Bytes) (field : String) : Option (Status × Option (Option Nat) × Option Nat) :=
  match (HTTPClient_ReadHeader P (some (tResp resp.length)) (some (ascii field)) (some none) (some 0) (⟨(), fun _ => resp, []⟩ : World PLog Unit)).1 with
  | .ok x => some x
  | _ => none

/-- A call with arbitrary arguments: the status. -/
def tReadSt (r : Option (Resp Unit)) (field : Option Bytes) (l : Option (Option Nat)) (n : Option Nat) : Option Status :=
  match (HTTPClient_ReadHeader (tMock none none .continue_ false .ok) r field l n (⟨(), fun _ => tResponse, []⟩ : World PLog Unit)).1 with
  | .ok x => some x.1
  | _ => none

/-- core_http_utest.c:1298, test_Http_ReadHeader_Invalid_Params. -/
example :
    tReadSt none (some (ascii "Header")) (some none) (some 0) = some .invalidParameter ∧
    tReadSt (some { tResp 100 with pBuffer := none }) (some (ascii "Header")) (some none) (some 0) = some .invalidParameter ∧
    tReadSt (some (tResp 0)) (some (ascii "Header")) (some none) (some 0) = some .invalidParameter ∧
    tReadSt (some (tResp 100)) none (some none) (some 0) = some .invalidParameter ∧
    tReadSt (some (tResp 100)) (some []) (some none) (some 0) = some .invalidParameter ∧
    tReadSt (some (tResp 100)) (some (ascii "Header")) none (some 0) = some .invalidParameter ∧
    tReadSt (some (tResp 100)) (some (ascii "Header")) (some none) none = some .invalidParameter := by decide +kernel

/-- core_http_utest.c:1366, test_Http_ReadHeader_Header_Not_In_Response: another name of another length, then of the same length. -/
example :
    (tRead (tMock (some (44, 12)) (some (58, 11)) .continue_ true .ok) tResponse "header-not-in-buffer").map (·.1) = some .headerNotFound ∧
    (tRead (tMock (some (98, 20)) (some (58, 11)) .continue_ true .ok) tResponse "header-not-in-buffer").map (·.1) = some .headerNotFound := by
  decide +kernel

/-- core_http_utest.c:1431, test_Http_ReadHeader_Invalid_Response_Only_Header_Field_Found. -/
example : (tRead (tMock (some (44, 12)) none .continue_ false .ok) (ascii "HTTP/1.1 200 OK\r\ntest-header0: test-value0\r\ntest-header1:")
    "teSt-hEader1").map (·.1) = some .invalidResponse := by decide +kernel

/-- core_http_utest.c:1466, test_caseInsensitiveStringCmp. -/
example :
    (tRead (tMock (some (44, 12)) (some (58, 11)) .continue_ true .ok) tResponseSpecial "header-not-in-buffer").map (·.1) = some .headerNotFound ∧
    (tRead (tMock (some (98, 20)) (some (58, 11)) .continue_ true .ok) tResponseSpecial "header{_not-in|buff}").map (·.1) = some .headerNotFound := by
  decide +kernel

/-- core_http_utest.c:1531, test_Http_ReadHeader_Invalid_Response_No_Headers_Complete_Ending (an unknown error). -/
example : (tRead (tMock none none .continue_ false (.other 100)) (ascii "HTTP/1.1 200 OK\r\ntest-header0:test-value0") "header-not-in-buffer").map (·.1) =
    some .invalidResponse := by decide +kernel

/-- core_http_utest.c:1566, test_Http_ReadHeader_With_HttpParser_Internal_Error (HPE_CB_CHUNK_COMPLETE, which the library does not name). -/
example : (tRead (tMock (some (44, 12)) (some (58, 11)) .user false (.other 100)) tResponse "teSt-hEader1").map (·.1) = some .parserInternalError := by
  decide +kernel

/-- core_http_utest.c:1595, test_Http_ReadHeader_Happy_Path. -/
example : tRead (tMock (some (44, 12)) (some (58, 11)) .user false .user) tResponse "teSt-hEader1" = some (.success, some (some 58), some 11) := by
  decide +kernel

/-- core_http_utest.c:1628, test_Http_ReadHeader_EmptyHeaderValue. -/
example : tRead (tMock (some (44, 12)) (some (60, 0)) .user false .user) tResponseEmpty "teSt-hEader1" = some (.success, some none, some 0) := by
  decide +kernel

/-- core_http_utest.c:1662, test_HTTPClient_strerror (HTTPInvalidResponse + 1 has no name). -/
example :
    HTTPClient_strerror Status.success.code = some "HTTPSuccess" ∧
    HTTPClient_strerror Status.invalidParameter.code = some "HTTPInvalidParameter" ∧
    HTTPClient_strerror Status.networkError.code = some "HTTPNetworkError" ∧
    HTTPClient_strerror Status.partialResponse.code = some "HTTPPartialResponse" ∧
    HTTPClient_strerror Status.noResponse.code = some "HTTPNoResponse" ∧
    HTTPClient_strerror Status.insufficientMemory.code = some "HTTPInsufficientMemory" ∧
    HTTPClient_strerror Status.extraneousResponseData.code = some "HTTPSecurityAlertExtraneousResponseData" ∧
    HTTPClient_strerror Status.invalidChunkHeader.code = some "HTTPSecurityAlertInvalidChunkHeader" ∧
    HTTPClient_strerror Status.invalidProtocolVersion.code = some "HTTPSecurityAlertInvalidProtocolVersion" ∧
    HTTPClient_strerror Status.invalidStatusCode.code = some "HTTPSecurityAlertInvalidStatusCode" ∧
    HTTPClient_strerror Status.invalidCharacter.code = some "HTTPSecurityAlertInvalidCharacter" ∧
    HTTPClient_strerror Status.invalidContentLength.code = some "HTTPSecurityAlertInvalidContentLength" ∧
    HTTPClient_strerror Status.parserPaused.code = some "HTTPParserPaused" ∧
    HTTPClient_strerror Status.parserInternalError.code = some "HTTPParserInternalError" ∧
    HTTPClient_strerror Status.headerNotFound.code = some "HTTPHeaderNotFound" ∧
    HTTPClient_strerror Status.invalidResponse.code = some "HTTPInvalidResponse" ∧
    HTTPClient_strerror (Status.invalidResponse.code + 1) = none := by decide +kernel

end CoreHttp.Tests

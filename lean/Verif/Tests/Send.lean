import Verif.Model.Receive
import Verif.Tests.Request

/-!
# The repository's unit tests, run on the model: HTTPClient_Send

Evidence that the model is the program, not part of any proof: each `example` transcribes one test of /repo/test/unit-test/core_http_send_utest.c. The
mocked transport and the mocked llhttp_execute are transcribed as well; as in the C suite, the request and the response share one buffer of 1024 bytes.
-/

namespace CoreHttp.Tests
open CoreHttp

/-! ## The mocked transport and clock -/

/-- The variables of the mocks, core_http_send_utest.c:196-249. `headers` is what onHeaderCallback was given. -/
structure TEnv where
  sendCall : Nat := 0
  sendErrorCall : Nat := 0
  sendPartialCall : Nat := 0
  sendTimeoutCall : Nat := 0
  sent : List Bytes := []
  net : Bytes
  firstPart : Nat
  recvCall : Nat := 0
  recvTimeoutCall : Nat := 255
  time : Nat := 0
  headers : List (Bytes × Bytes) := []

/-- transportSendSuccess, core_http_send_utest.c:297-331 (with transportSendNetworkError, 336-353: an error on call `sendErrorCall`). -/
def tSend (s : TEnv) (d : Bytes) : Int × TEnv :=
  let n := s.sendCall + 1
  let s := { s with sendCall := n, sent := s.sent ++ [d] }
  if s.sendErrorCall = n then (-1, s)
  else if s.sendTimeoutCall = n then (0, s)
  else if s.sendPartialCall = n then ((d.length : Int) - 1, s)
  else (d.length, s)

/-- transportRecvSuccess, core_http_send_utest.c:360-397. -/
def tRecv (s : TEnv) (len : Nat) : Int × Bytes × TEnv :=
  let n := s.recvCall + 1
  let s := { s with recvCall := n }
  if s.recvTimeoutCall = n then (0, [], s)
  else
    let k := min (if n = 1 then s.firstPart else s.net.length) len
    ((s.net.take k).length, s.net.take k, { s with net := s.net.drop k })

/-- getTestTime, core_http_send_utest.c:258-263. -/
def tTime (s : TEnv) : UInt32 × TEnv := (UInt32.ofNat s.time, { s with time := s.time + 1 })

/-- onHeaderCallback, core_http_send_utest.c:267-294: here it records the headers. -/
def tOnHeader : HeaderCb TEnv := .user fun s _ f _ v _ => { s with headers := s.headers ++ [(f, v)] }

/-- The transport. -/
def tT : Transport TEnv := ⟨some tSend, some tRecv⟩

/-! ## The mocked parser -/

/-- strstr: the first position of `pat` at or after `off` (the end of the data when there is none). -/
def tFindAux (pat : Bytes) : Bytes → Nat → Nat
  | [], n => n
  | x :: xs, n => if pat.isPrefixOf (x :: xs) then n else tFindAux pat xs (n + 1)
def tFind (pat : String) (d : Bytes) (off : Nat) : Nat := tFindAux (ascii pat) (d.drop off) off

/-- helper_parse_status_line, core_http_send_utest.c:449-493: the events and the position after the line. -/
def tStatusLine (d : Bytes) : List PEv × Nat :=
  let code := tFind " " d 0 + 1
  let reason := tFind " " d code + 1
  let next := tFind "\r\n" d code + 2
  if next > reason then ([.status reason (next - reason - 2) 200], next) else ([.statusComplete 200], next)

/-- helper_parse_headers, core_http_send_utest.c:496-521. -/
def tHeaders (d : Bytes) : (fuel : Nat) → (off : Nat) → List PEv × Nat
  | 0, off => ([], off)
  | fuel + 1, off =>
    if (d.drop off).head? = some 13 then ([], off)
    else
      let fe := tFind ": " d off
      let ve := tFind "\r\n" d (fe + 2)
      let r := tHeaders d fuel (ve + 2)
      ([.headerField off (fe - off), .headerValue (fe + 2) (ve - (fe + 2))] ++ r.1, r.2)

/-- What the mock takes from the headers the application callback saw: content_length and the connection flags (helper_parse_headers_finish,
core_http_send_utest.c:525-552). -/
structure TInfo where
  cl : UInt64
  close : Bool
  keepAlive : Bool
deriving DecidableEq

/-- contentLength, hasConnectionClose and hasConnectionKeepAlive as onHeaderCallback sets them. -/
def tInfoOf (hs : List (Bytes × Bytes)) : TInfo where
  cl := if (ascii "Content-Length", ascii "43") ∈ hs then 43 else 18446744073709551615
  close := (ascii "Connection", ascii "close") ∈ hs
  keepAlive := (ascii "Connection", ascii "keep-alive") ∈ hs

/-- The state of a mock: the number of calls so far. -/
abbrev TTree := PTree Nat

/-- Invoke these callbacks, ignoring what they return, then go on. -/
def tEvs (es : List PEv) (t : TTree) : TTree := es.foldr (fun e t => .call e fun _ => t) t

/-- helper_parse_headers_finish and helper_parse_body, core_http_send_utest.c:525-576: the body callback is invoked only when there are bytes left and, if
`ask`, the headers-complete callback returned 0. -/
def tFinish (i : TInfo) (d : Bytes) (off : Nat) (ask : Bool) (t : TTree) : TTree :=
  let body := if d.length > off + 2 then tEvs [.body (off + 2) (d.length - (off + 2))] t else t
  .call (.headersComplete (off + 2) i.cl i.close i.keepAlive) fun r => if ask ∧ r ≠ .continue_ then t else body

/-- A mock from its function. -/
def tParser (f : Nat → Bytes → TTree) : Parser := ⟨Nat, 0, f, id⟩

/-- Everything up to the end of the headers, starting with the status line. -/
def tTop (i : TInfo) (d : Bytes) (ask : Bool) (t : TTree) : TTree :=
  let l := tStatusLine d
  let h := tHeaders d 20 l.2
  tEvs (.messageBegin :: l.1 ++ h.1) (tFinish i d h.2 ask t)

/-- llhttp_execute_whole_response, core_http_send_utest.c:580-601. -/
def tWholeTree (i : TInfo) (er : Errno) (n : Nat) (d : Bytes) : TTree := tTop i d true (tEvs [.messageComplete] (.done er 0 (n + 1)))
def tWhole (i : TInfo) : Parser := tParser fun n d => tWholeTree i .ok n d

/-- llhttp_execute_paused_upgrade, core_http_send_utest.c:604-620. -/
def tUpgrade (i : TInfo) : Parser := tParser fun n d => tWholeTree i (if n = 0 then .pausedUpgrade else .ok) n d

/-- llhttp_execute_partial_header_field, core_http_send_utest.c:626-667. -/
def tPartialField (i : TInfo) : Parser := tParser fun n d =>
  if n = 0 then
    let l := tStatusLine d
    tEvs (.messageBegin :: l.1 ++ [.headerField l.2 (d.length - l.2)]) (.done .ok 0 (n + 1))
  else if d.length = 0 then .done .invalidEofState 0 n
  else
    let h := tHeaders d 20 0
    tEvs h.1 (tFinish i d h.2 true (tEvs [.messageComplete] (.done .ok 0 (n + 1))))

/-- llhttp_execute_partial_header_value, core_http_send_utest.c:673-727. -/
def tPartialValue (i : TInfo) : Parser := tParser fun n d =>
  if n = 0 then
    let l := tStatusLine d
    let fe := tFind ": " d l.2
    tEvs (.messageBegin :: l.1 ++ [.headerField l.2 (fe - l.2), .headerValue (fe + 2) (d.length - (fe + 2))]) (.done .ok 0 (n + 1))
  else
    let ve := tFind "\r\n" d 0
    let h := tHeaders d 20 (ve + 2)
    tEvs (.headerValue 0 ve :: h.1) (tFinish i d h.2 true (tEvs [.messageComplete] (.done .ok 0 (n + 1))))

/-- llhttp_execute_partial_body, core_http_send_utest.c:732-761. -/
def tPartialBody (i : TInfo) : Parser := tParser fun n d =>
  if n = 0 then tTop i d false (.done .ok 0 (n + 1))
  else tEvs ((if d.length > 0 then [.body 0 d.length] else []) ++ [.messageComplete]) (.done .ok 0 (n + 1))

/-- llhttp_execute_partial_body_do_not_parse, core_http_send_utest.c:767-787: error_pos is the end of the headers. -/
def tNoBody (i : TInfo) : Parser := tParser fun n d =>
  let l := tStatusLine d
  let h := tHeaders d 20 l.2
  tEvs (.messageBegin :: l.1 ++ h.1 ++ [.headersComplete (h.2 + 2) i.cl i.close i.keepAlive]) (.done .paused (h.2 + 2) n)

/-- llhttp_execute_chunked_body, core_http_send_utest.c:791-837, for chunks of the given sizes (the mock reads them with strtoul). -/
def tChunked (i : TInfo) (sizes : List Nat) : Parser := tParser fun n d =>
  let l := tStatusLine d
  let h := tHeaders d 20 l.2
  let chunks := sizes.foldl (fun (a : List PEv × Nat) k =>
    let start := tFind "\r\n" d a.2 + 2
    (a.1 ++ [.body start k], tFind "\r\n" d start + 2)) ([], h.2 + 2)
  tEvs (.messageBegin :: l.1 ++ h.1 ++ [.headersComplete (h.2 + 2) i.cl i.close i.keepAlive] ++ chunks.1 ++ [.messageComplete]) (.done .ok 0 (n + 1))

/-- llhttp_execute_error, core_http_send_utest.c:435-446. -/
def tError (er : Errno) : Parser := tParser fun n _ => .done er 0 n

/-! ## Data, core_http_send_utest.c:39-185 -/

def tHeadReq : String := "HEAD /somedir/somepage.html HTTP/1.1\r\ntest-header0: test-value0\r\ntest-header1: test-value1\r\ntest-header2: test-value2\r\n" ++
  "test-header3: test-value0\r\ntest-header4: test-value1\r\ntest-header5: test-value2\r\n\r\n"
def tPutReq : String := "PUT /somedir/somepage.html HTTP/1.1\r\ntest-header1: test-value1\r\ntest-header2: test-value2\r\n" ++
  "test-header3: test-value0\r\ntest-header4: test-value1\r\ntest-header5: test-value2\r\n\r\n"
def tGetReq : String := "GET /somedir/somepage.html HTTP/1.1\r\ntest-header1: test-value1\r\ntest-header2: test-value2\r\n" ++
  "test-header3: test-value0\r\ntest-header4: test-value1\r\ntest-header5: test-value2\r\n\r\n"
def tPutBody : Bytes := ascii "abcdefghijklmnopqrstuvwxyz"

/-- The header lines Date, ETag, Vary, P3P and xserver, and the end of the section. -/
def tRest : String := "Date: Sun, 14 Jul 2019 06:07:52 GMT\r\nETag: \"3356-5233\"\r\nVary: *\r\nP3P: CP=\"This is not a P3P policy\"\r\nxserver: www1021\r\n\r\n"
def tHeadHdrs : String := "Content-Length: 43\r\nConnection: close\r\n" ++ tRest
def tPutHdrs : String := "Connection: keep-alive\r\n" ++ tRest
def tChunkHdrs : String := "Transfer-Encoding: chunked\r\nConnection: keep-alive\r\n" ++ tRest
def tOK : String := "HTTP/1.1 200 OK\r\n"
def tHeadResp : Bytes := ascii (tOK ++ tHeadHdrs)
def tHeadResp2 : Bytes := ascii ("HTTP/1.1 200\r\n" ++ tHeadHdrs)
def tPutResp : Bytes := ascii (tOK ++ tPutHdrs)
def tGetResp : Bytes := ascii (tOK ++ tHeadHdrs ++ "abcdefghijklmnopqrstuvwxyzabcdefghijklmnopq")
def tChunkResp : Bytes := ascii (tOK ++ tChunkHdrs ++ "b\r\nabcdefghijk\r\nc\r\nlmnopqrstuvw\r\n3\r\nxyz\r\n0\r\n\r\n")
def tNoHdrResp : Bytes := ascii (tOK ++ "\r\n")

/-- The headers of the mocked responses: with Content-Length and Connection: close; with Connection: keep-alive; neither. -/
def tI1 : TInfo := ⟨43, true, false⟩
def tI2 : TInfo := ⟨18446744073709551615, false, true⟩
def tI0 : TInfo := ⟨18446744073709551615, false, false⟩

/-! ## Running a call -/

/-- setUp, core_http_send_utest.c:842-883: block 0 is httpBuffer with the request, block 1 is a request in a buffer of its own, block 2 is the body. -/
def tWorld (req : String) (e : TEnv) : World PLog TEnv :=
  ⟨e, fun b => if b = 0 then ascii req ++ List.replicate (1024 - (ascii req).length) 0 else if b = 1 then ascii req else tPutBody, []⟩

/-- The network delivers the whole response in the first read. -/
def tEnv (net : Bytes) : TEnv := { net := net, firstPart := net.length }

/-- The response object after setUp. -/
def tR : Resp TEnv := ⟨some 0, 1024, some tOnHeader, .null, none, 0, none, 0, 0, 0, 0, 0, 0, 0⟩
/-- The request object after setUp. -/
def tQ (req : String) : ReqHeaders := ⟨some 0, 1024, (ascii req).length⟩

/-- What the C tests look at: status; pHeaders, headersLen; pBody, bodyLen; statusCode, contentLength, headerCount, respFlags; and the body itself, and what
the mock derives from the calls of the header callback. -/
structure TSeen where
  st : Status
  pHeaders : Option Nat
  headersLen : Nat
  pBody : Option Nat
  bodyLen : Nat
  statusCode : Nat
  contentLength : Nat
  headerCount : Nat
  respFlags : UInt32
  info : TInfo
  calls : Nat
deriving DecidableEq

/-- Of a run. -/
def tSeen (x : Run (Status × Option ReqHeaders × Option (Resp TEnv)) × World PLog TEnv) : Option TSeen :=
  match x.1 with
  | .ok (st, _, some r) => some ⟨st, r.pHeaders, r.headersLen, r.pBody, r.bodyLen, r.statusCode, r.contentLength, r.headerCount, r.respFlags,
      tInfoOf x.2.env.headers, x.2.env.headers.length⟩
  | _ => none

/-- The status of a run. -/
def tStatus (x : Run (Status × Option ReqHeaders × Option (Resp TEnv)) × World PLog TEnv) : Option Status :=
  match x.1 with
  | .ok (st, _, _) => some st
  | _ => none

/-- HTTPClient_Send with request `req` in the shared buffer, without a body. -/
def tCall (P : Parser) (req : String) (e : TEnv) (r : Resp TEnv) : Run (Status × Option ReqHeaders × Option (Resp TEnv)) × World PLog TEnv :=
  HTTPClient_Send P tCfg 50 (some tT) (some (tQ req)) none 0 (some r) 0 (tWorld req e)

/-- HTTPClient_Send of the PUT request with the body. -/
def tCallPut (P : Parser) (e : TEnv) (r : Resp TEnv) (flags : UInt32) : Run (Status × Option ReqHeaders × Option (Resp TEnv)) × World PLog TEnv :=
  HTTPClient_Send P tCfg 50 (some tT) (some (tQ tPutReq)) (some 2) 26 (some r) flags (tWorld tPutReq e)

/-- The expected outcome of the HEAD tests. -/
def tHeadSeen : TSeen := {
  st := .success
  pHeaders := some 17
  headersLen := tHeadResp.length - 17 - 4
  pBody := none
  bodyLen := 0
  statusCode := 200
  contentLength := 43
  headerCount := 7
  respFlags := 1
  info := tI1
  calls := 7 }

/-- The expected outcome of the PUT tests. -/
def tPutSeen : TSeen := {
  st := .success
  pHeaders := some 17
  headersLen := tPutResp.length - 17 - 4
  pBody := none
  bodyLen := 0
  statusCode := 200
  contentLength := 0
  headerCount := 6
  respFlags := 2
  info := tI2
  calls := 6 }

/-- The expected outcome of the GET tests: the body follows the headers. -/
def tGetSeen : TSeen := {
  st := .success
  pHeaders := some 17
  headersLen := tHeadResp.length - 17 - 4
  pBody := some tHeadResp.length
  bodyLen := 43
  statusCode := 200
  contentLength := 43
  headerCount := 7
  respFlags := 1
  info := tI1
  calls := 7 }

/-! ## Whole responses -/

/-- core_http_send_utest.c:889, test_HTTPClient_Send_HEAD_request_parse_whole_response. -/
example : tSeen (tCall (tWhole tI1) tHeadReq (tEnv tHeadResp) tR) = some tHeadSeen := by decide +kernel

/-- core_http_send_utest.c:918, test_HTTPClient_Send_HEAD_request_no_parse_body. -/
example : tSeen (tCall (tWhole tI1) tHeadReq (tEnv tHeadResp) { tR with respOptionFlags := 1 }) = some tHeadSeen := by decide +kernel

/-- core_http_send_utest.c:951, test_HTTPClient_Send_HEAD_request_parse_whole_response_no_reason_string. (The C test leaves firstPartBytes at the length of the longer response, so its
mock copies 3 bytes past the end of the data; here it is the length of the data.) -/
example : tSeen (tCall (tWhole tI1) tHeadReq (tEnv tHeadResp2) tR) =
    some { tHeadSeen with pHeaders := some 14, headersLen := tHeadResp2.length - 14 - 4 } := by decide +kernel

/-- core_http_send_utest.c:984, test_HTTPClient_Send_PUT_request_parse_whole_response. -/
example : tSeen (tCallPut (tWhole tI2) (tEnv tPutResp) tR 0) = some tPutSeen := by decide +kernel
/-- The same test, checkContentLength (core_http_send_utest.c:316-331): the data of the first send ends with the Content-Length header. -/
example : (tCallPut (tWhole tI2) (tEnv tPutResp) tR 0).2.env.sent =
    [ascii ((tPutReq.dropEnd 2).toString ++ "Content-Length: 26\r\n\r\n"), tPutBody] := by decide +kernel

/-- core_http_send_utest.c:1023, test_HTTPClient_Send_GET_request_parse_whole_response. -/
example : tSeen (tCall (tWhole tI1) tGetReq (tEnv tGetResp) tR) = some tGetSeen := by decide +kernel

/-- core_http_send_utest.c:1059, test_HTTPClient_Send_no_response_headers. -/
example : tSeen (tCall (tWhole tI0) tHeadReq (tEnv tNoHdrResp) tR) = some {
    st := .success
    pHeaders := none
    headersLen := 0
    pBody := none
    bodyLen := 0
    statusCode := 200
    contentLength := 0
    headerCount := 0
    respFlags := 0
    info := tI0
    calls := 0 } := by decide +kernel

/-! ## Responses in parts -/

/-- core_http_send_utest.c:1092, test_HTTPClient_Send_parse_partial_header_field: the first read ends after "Content-Len". -/
example : tSeen (tCall (tPartialField tI1) tHeadReq { tEnv tHeadResp with firstPart := 17 + 11 } tR) = some tHeadSeen := by decide +kernel

/-- core_http_send_utest.c:1123, test_HTTPClient_Send_parse_partial_header_value: the first read ends after "Content-Length: 4". -/
example : tSeen (tCall (tPartialValue tI1) tHeadReq { tEnv tHeadResp with firstPart := 17 + 17 } tR) = some tHeadSeen := by decide +kernel

/-- core_http_send_utest.c:1154, test_HTTPClient_Send_parse_partial_body. -/
example : tSeen (tCall (tPartialBody tI1) tGetReq { tEnv tGetResp with firstPart := tGetResp.length - 13 } tR) = some tGetSeen := by decide +kernel

/-- core_http_send_utest.c:1192, test_HTTPClient_Send_do_not_parse_partial_body. -/
example : tSeen (tCall (tNoBody tI1) tGetReq { tEnv tGetResp with firstPart := tGetResp.length - 13 } { tR with respOptionFlags := 1 }) =
    some { tGetSeen with bodyLen := tGetResp.length - 13 - tHeadResp.length } := by decide +kernel

/-- core_http_send_utest.c:1230, test_HTTPClient_Send_parse_chunked_body. -/
example : tSeen (tCallPut (tChunked tI2 [11, 12, 3]) (tEnv tChunkResp) tR 0) = some {
    st := .success
    pHeaders := some 17
    headersLen := (ascii tChunkHdrs).length - 4
    pBody := some (17 + (ascii tChunkHdrs).length + 3)
    bodyLen := 26
    statusCode := 200
    contentLength := 0
    headerCount := 7
    respFlags := 2
    info := tI2
    calls := 7 } := by decide +kernel
/-- The same test: the chunks are joined. -/
example : (((tCallPut (tChunked tI2 [11, 12, 3]) (tEnv tChunkResp) tR 0).2.mem 0).drop (17 + (ascii tChunkHdrs).length + 3)).take 26 = tPutBody := by
  decide +kernel

/-! ## Timeouts and network errors -/

/-- core_http_send_utest.c:1265, test_HTTPClient_Send_timeout_recv_immediate. -/
example : tStatus (tCall (tError .ok) tHeadReq { tEnv tHeadResp with recvTimeoutCall := 1 } tR) = some .noResponse := by decide +kernel

/-- core_http_send_utest.c:1286, test_HTTPClient_Send_timeout_partial_response. -/
example : tStatus (tCall (tPartialField tI1) tHeadReq { tEnv tHeadResp with firstPart := 17 + 17, recvTimeoutCall := 2 } tR) =
    some .partialResponse := by decide +kernel

/-- core_http_send_utest.c:1311, test_HTTPClient_Send_timeout_recv_retry: the first read of the response is empty; the mock has used its first call, so the
retry delivers all of the response. -/
example : tStatus (tCall (tWhole tI1) tHeadReq { tEnv tHeadResp with recvTimeoutCall := 1 } { tR with getTime := .user tTime }) = some .success := by
  decide +kernel

/-- core_http_send_utest.c:1342, test_HTTPClient_Send_response_larger_than_buffer: the request has its own buffer, there is no header callback. -/
example : tStatus (HTTPClient_Send (tPartialBody tI0) tCfg 50 (some tT) (some ⟨some 1, (ascii tGetReq).length, (ascii tGetReq).length⟩) none 0
    (some { tR with bufferLen := tGetResp.length - 13, pHeaderParsingCallback := none }) 0
    (tWorld tGetReq { tEnv tGetResp with firstPart := tGetResp.length - 13 })) = some .insufficientMemory := by decide +kernel

/-- core_http_send_utest.c:1393, test_HTTPClient_Send_network_error_request_headers. -/
example : tStatus (tCall (tWhole tI1) tHeadReq { tEnv tHeadResp with sendErrorCall := 1 } tR) = some .networkError := by decide +kernel

/-- core_http_send_utest.c:1412, test_HTTPClient_Send_network_error_request_body: the request has its own buffer, which is full. -/
example : tStatus (HTTPClient_Send (tWhole tI1) tCfg 50 (some tT) (some ⟨some 1, (ascii tPutReq).length, (ascii tPutReq).length⟩) (some 2) 26 (some tR) 1
    (tWorld tPutReq { tEnv tHeadResp with sendErrorCall := 2 })) = some .networkError := by decide +kernel

/-- core_http_send_utest.c:1438, test_HTTPClient_Send_timeout_send_retry. -/
example : tStatus (tCall (tWhole tI1) tHeadReq { tEnv tHeadResp with sendTimeoutCall := 1 } { tR with getTime := .user tTime }) = some .success := by
  decide +kernel

/-- core_http_send_utest.c:1461, test_HTTPClient_Send_timeout_send_retry_fail. -/
example : tStatus (tCall (tWhole tI1) tHeadReq { tEnv tHeadResp with sendPartialCall := 1, sendTimeoutCall := 2 } tR) = some .networkError := by
  decide +kernel

/-- core_http_send_utest.c:1489, test_HTTPClient_Send_less_bytes_request_headers: nothing follows the last byte of the headers. -/
example : tSeen (tCall (tWhole tI2) tPutReq { tEnv tPutResp with sendPartialCall := 1 } tR) = some tPutSeen ∧
    (tCall (tWhole tI2) tPutReq { tEnv tPutResp with sendPartialCall := 1 } tR).2.env.sent = [ascii tPutReq, [10]] := by decide +kernel

/-- core_http_send_utest.c:1529, test_HTTPClient_Send_less_bytes_request_body. -/
example : tSeen (tCallPut (tWhole tI2) { tEnv tPutResp with sendPartialCall := 2 } tR 1) = some tPutSeen ∧
    (tCallPut (tWhole tI2) { tEnv tPutResp with sendPartialCall := 2 } tR 1).2.env.sent = [ascii tPutReq, tPutBody, ascii "z"] := by decide +kernel

/-- core_http_send_utest.c:1571, test_HTTPClient_Send_paused_upgrade. -/
example : tStatus (tCall (tUpgrade tI1) tHeadReq (tEnv tHeadResp) tR) = some .success := by decide +kernel

/-- core_http_send_utest.c:1591, test_HTTPClient_Send_network_error_response. -/
example : tStatus (HTTPClient_Send (tError .ok) tCfg 50 (some ⟨some tSend, some fun s _ => (-1, [], s)⟩) (some (tQ tHeadReq)) none 0 (some tR) 0
    (tWorld tHeadReq (tEnv tHeadResp))) = some .networkError := by decide +kernel

/-! ## Parameters -/

/-- HTTPClient_Send with the given arguments on the HEAD request. -/
def tArgs (T : Option (Transport TEnv)) (q : Option ReqHeaders) (body : Option Nat) (n : Nat) (r : Option (Resp TEnv)) : Option Status :=
  tStatus (HTTPClient_Send (tWhole tI1) tCfg 50 T q body n r 0 (tWorld tHeadReq (tEnv tHeadResp)))

/-- core_http_send_utest.c:1373, 1610-1807: test_HTTPClient_Send_null_response, _null_transport_interface, _null_transport_send, _null_transport_recv,
_null_request_headers, _null_request_header_buffer, _request_headers_gt_buffer, _null_response_buffer, _zero_response_buffer_len,
_request_body_buffer_length_gt_max, _not_enough_request_headers, _null_request_body_nonzero_body_length. -/
example :
    tArgs (some tT) (some (tQ tHeadReq)) (some 2) 26 none = some .invalidParameter ∧
    tArgs none (some (tQ tHeadReq)) none 0 (some tR) = some .invalidParameter ∧
    tArgs (some { tT with send := none }) (some (tQ tHeadReq)) none 0 (some tR) = some .invalidParameter ∧
    tArgs (some { tT with recv := none }) (some (tQ tHeadReq)) none 0 (some tR) = some .invalidParameter ∧
    tArgs (some tT) none none 0 (some tR) = some .invalidParameter ∧
    tArgs (some tT) (some { tQ tHeadReq with pBuffer := none }) none 0 (some tR) = some .invalidParameter ∧
    tArgs (some tT) (some { tQ tHeadReq with headersLen := 1025 }) none 0 (some tR) = some .invalidParameter ∧
    tArgs (some tT) (some (tQ tHeadReq)) none 0 (some { tR with pBuffer := none }) = some .invalidParameter ∧
    tArgs (some tT) (some (tQ tHeadReq)) none 0 (some { tR with bufferLen := 0 }) = some .invalidParameter ∧
    tArgs (some tT) (some (tQ tHeadReq)) (some 2) 2147483648 (some tR) = some .invalidParameter ∧
    tArgs (some tT) (some { tQ tHeadReq with headersLen := 15 }) none 0 (some tR) = some .invalidParameter ∧
    tArgs (some tT) (some (tQ tHeadReq)) none 1 (some tR) = some .invalidParameter := by decide +kernel

/-- core_http_send_utest.c:1809, test_HTTPClient_Send_Content_Length_Header_Doesnt_Fit. -/
example : tStatus (HTTPClient_Send (tWhole tI1) tCfg 50 (some tT) (some ⟨some 1, (ascii tPutReq).length, (ascii tPutReq).length⟩) (some 2) 26 (some tR) 0
    (tWorld tPutReq (tEnv tHeadResp))) = some .insufficientMemory := by decide +kernel

/-! ## Parser errors -/

/-- One more call with the objects, the memory and the network as the calls before left them, and a parser that fails with `er`. -/
def tAgain (x : List (Option Status) × Resp TEnv × World PLog TEnv) (er : Errno) (flags : UInt32) : List (Option Status) × Resp TEnv × World PLog TEnv :=
  match HTTPClient_Send (tError er) tCfg 50 (some tT) (some (tQ tHeadReq)) none 0 (some { x.2.1 with respOptionFlags := flags }) 0 x.2.2 with
  | (.ok (st, _, some r), w) => (x.1 ++ [some st], r, w)
  | (_, w) => (x.1 ++ [none], x.2.1, w)

/-- core_http_send_utest.c:1834, test_HTTPClient_Send_parsing_errors: thirteen calls in a row, on the same objects; only the first receives data. The
request buffer holds the response since the first call, as in the C test. -/
def tErrors : List (Option Status) × Resp TEnv × World PLog TEnv :=
  [(Errno.invalidChunkSize, (0 : UInt32)), (.closedConnection, 0), (.invalidVersion, 0), (.invalidStatus, 0), (.strict, 0), (.invalidConstant, 0),
    (.lfExpected, 0), (.invalidHeaderToken, 0), (.invalidContentLength, 0), (.unexpectedContentLength, 0), (.paused, 0), (.paused, 1), (.other 100, 1)].foldl
    (fun x e => tAgain x e.1 e.2) ([], tR, tWorld tHeadReq (tEnv tHeadResp))

example : tErrors.1 = [some .invalidChunkHeader, some .extraneousResponseData, some .invalidProtocolVersion, some .invalidStatusCode,
    some .invalidCharacter, some .invalidCharacter, some .invalidCharacter, some .invalidCharacter, some .invalidContentLength,
    some .invalidContentLength, some .parserPaused, some .noResponse, some .parserInternalError] := by decide +kernel

end CoreHttp.Tests

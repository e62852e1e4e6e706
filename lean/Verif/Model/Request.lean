import Verif.Basic

/-!
# Model of request building

core_http_client.c: convertInt32ToAscii, httpHeaderStrncpy, addHeader, addRangeHeader, writeRequestLine,
HTTPClient_InitializeRequestHeaders, HTTPClient_AddHeader, HTTPClient_AddRangeHeader, addContentLengthHeader.
-/

namespace CoreHttp

/-! ## Literals (core_http_client_private.h:54-155) -/

/-- CARRIAGE_RETURN_CHARACTER, core_http_client_private.h:76. -/
def CR : UInt8 := 13
/-- LINEFEED_CHARACTER, core_http_client_private.h:77. -/
def LF : UInt8 := 10
/-- COLON_CHARACTER, core_http_client_private.h:78. -/
def COLON : UInt8 := 58
/-- SPACE_CHARACTER, core_http_client_private.h:70. -/
def SPACE : UInt8 := 32
/-- DASH_CHARACTER, core_http_client_private.h:72. -/
def DASH : UInt8 := 45
/-- HTTP_PROTOCOL_VERSION, core_http_client_private.h:54. -/
def PROTOCOL_VERSION : Bytes := ascii "HTTP/1.1"
/-- HTTP_EMPTY_PATH, core_http_client_private.h:60. -/
def EMPTY_PATH : Bytes := ascii "/"
/-- HTTP_HEADER_LINE_SEPARATOR, core_http_client_private.h:64. -/
def LINE_SEPARATOR : Bytes := ascii "\r\n"
/-- HTTP_HEADER_END_INDICATOR, core_http_client_private.h:66. -/
def HEADER_END_INDICATOR : Bytes := ascii "\r\n\r\n"
/-- HTTP_HEADER_FIELD_SEPARATOR, core_http_client_private.h:68. -/
def FIELD_SEPARATOR : Bytes := ascii ": "
/-- HTTP_USER_AGENT_FIELD, core_http_client_private.h:94. -/
def USER_AGENT_FIELD : Bytes := ascii "User-Agent"
/-- HTTP_HOST_FIELD, core_http_client_private.h:96. -/
def HOST_FIELD : Bytes := ascii "Host"
/-- HTTP_CONNECTION_FIELD, core_http_client_private.h:101. -/
def CONNECTION_FIELD : Bytes := ascii "Connection"
/-- HTTP_CONTENT_LENGTH_FIELD, core_http_client_private.h:103. -/
def CONTENT_LENGTH_FIELD : Bytes := ascii "Content-Length"
/-- HTTP_CONNECTION_KEEP_ALIVE_VALUE, core_http_client_private.h:111. -/
def KEEP_ALIVE_VALUE : Bytes := ascii "keep-alive"
/-- HTTP_RANGE_REQUEST_HEADER_FIELD, core_http_client_private.h:123. -/
def RANGE_FIELD : Bytes := ascii "Range"
/-- HTTP_RANGE_REQUEST_HEADER_VALUE_PREFIX, core_http_client_private.h:133. -/
def RANGE_VALUE_PREFIX : Bytes := ascii "bytes="
/-- MAX_INT32_NO_OF_DECIMAL_DIGITS, core_http_client_private.h:145. -/
def MAX_INT32_NO_OF_DECIMAL_DIGITS : Nat := 10
/-- HTTP_MAX_RANGE_REQUEST_VALUE_LEN, core_http_client_private.h:153-155. -/
def MAX_RANGE_REQUEST_VALUE_LEN : Nat :=
  RANGE_VALUE_PREFIX.length + MAX_INT32_NO_OF_DECIMAL_DIGITS + 1 + MAX_INT32_NO_OF_DECIMAL_DIGITS
/-- HTTP_REQUEST_KEEP_ALIVE_FLAG, core_http_client.h:114. -/
def REQUEST_KEEP_ALIVE_FLAG : UInt32 := 1
/-- HTTP_REQUEST_NO_USER_AGENT_FLAG, core_http_client.h:125. -/
def REQUEST_NO_USER_AGENT_FLAG : UInt32 := 2
/-- HTTP_RANGE_REQUEST_END_OF_FILE, core_http_client.h:189. -/
def RANGE_END_OF_FILE : Int := -1
/-- INT32_MIN. -/
def INT32_MIN : Int := -2147483648

/-! ## Objects -/

/-- HTTPRequestHeaders_t, core_http_client.h:364-389. `pBuffer` is a block id or NULL. -/
structure ReqHeaders where
  pBuffer : Option Nat
  bufferLen : Nat
  headersLen : Nat
deriving DecidableEq, Repr

/-- HTTPRequestInfo_t, core_http_client.h:395-423. A (pointer, length) pair is `none` for NULL and otherwise the
`length` bytes pointed to (simplification: the strings do not alias the header buffer). -/
structure ReqInfo where
  pMethod : Option Bytes
  pPath : Option Bytes
  pHost : Option Bytes
  reqFlags : UInt32
deriving DecidableEq, Repr

/-- Result of a request-building call: the status, the request object and the memory afterwards. -/
structure ReqOut where
  status : Status
  hdrs : ReqHeaders
  mem : Mem

/-! ## Integer to text -/

/-- core_http_client.c:1271-1276, the do-while loop of convertInt32ToAscii: writes the decimal digits of `a`
(the absolute value) least significant first at `pos`; returns the buffer and the number of digits. -/
def writeDigits (buf : Bytes) (pos : Nat) (numOfDigits : Nat) (a : Nat) : Run (Bytes × Nat) := do
  let buf ← memWrite buf (pos + numOfDigits) [UInt8.ofNat (a % 10 + 48)]
  if _h : a / 10 = 0 then .ok (buf, numOfDigits + 1)
  else writeDigits buf pos (numOfDigits + 1) (a / 10)
termination_by a
decreasing_by omega

/-- core_http_client.c:1280-1286, the in-place reversal loop of convertInt32ToAscii on the `n` bytes at `pos`;
`rem` is the number of iterations left, so `index = n / 2 - rem`. -/
def reverseDigits (buf : Bytes) (pos n : Nat) : Nat → Run Bytes
  | 0 => .ok buf
  | rem + 1 => do
    let index := n / 2 - (rem + 1)
    let bufferIndex := n - index - 1
    let temp ← memRead buf (pos + index) 1
    let other ← memRead buf (pos + bufferIndex) 1
    let buf ← memWrite buf (pos + index) other
    let buf ← memWrite buf (pos + bufferIndex) temp
    reverseDigits buf pos n rem

/-- convertInt32ToAscii, core_http_client.c:1238-1289. `buf` is the scratch array, `pos` the offset of `pBuffer` in it,
`bufferLength` the length argument. Returns the array and the number of characters written. -/
def convertInt32ToAscii (value : Int) (buf : Bytes) (pos bufferLength : Nat) : Run (Bytes × Nat) := do
  cAssert 1256 (decide (MAX_INT32_NO_OF_DECIMAL_DIGITS ≤ bufferLength))
  if value < 0 then
    let buf ← memWrite buf pos [DASH]
    -- absoluteValue = value * ( -1 ) overflows for INT32_MIN (line 1267)
    if value = INT32_MIN then .fault .intOverflow
    else
      let (buf, n) ← writeDigits buf (pos + 1) 0 value.natAbs
      let buf ← reverseDigits buf (pos + 1) n (n / 2)
      .ok (buf, 1 + n)
  else
    let (buf, n) ← writeDigits buf pos 0 value.natAbs
    let buf ← reverseDigits buf pos n (n / 2)
    .ok (buf, n)

/-! ## Headers -/

/-- httpHeaderStrncpy, core_http_client.c:1293-1338. `true` = the destination pointer is returned,
`false` = NULL (invalid character). Copies byte by byte and stops at the first invalid character. -/
def httpHeaderStrncpy (blk : Bytes) (off : Nat) (src : Bytes) (isField : Bool) : Run (Bool × Bytes) :=
  match src with
  | [] => .ok (true, blk)
  | c :: cs =>
    if c = CR then .ok (false, blk)
    else if c = LF then .ok (false, blk)
    else if isField = true ∧ c = COLON then .ok (false, blk)
    else do
      let blk ← memWrite blk off [c]
      httpHeaderStrncpy blk (off + 1) cs isField

/-- addHeader, core_http_client.c:1342-1438. -/
def addHeader (cfg : Cfg) (m : Mem) (h : ReqHeaders) (pField pValue : Option Bytes) : Run ReqOut :=
  match h.pBuffer, pField, pValue with
  | none, _, _ => .fault (.assertFail 1359)
  | _, none, _ => .fault (.assertFail 1360)
  | _, _, none => .fault (.assertFail 1361)
  | some b, some field, some value => do
    cAssert 1362 (decide (field.length ≠ 0))
    cAssert 1363 (decide (value.length ≠ 0))
    -- lines 1371-1377: back over the final "\r\n" when the headers end in "\r\n\r\n"
    let backtrack : Nat ←
      (if HEADER_END_INDICATOR.length ≤ h.headersLen then do
        let tail ← memRead (m b) (h.headersLen - HEADER_END_INDICATOR.length) HEADER_END_INDICATOR.length
        if tail = HEADER_END_INDICATOR then .ok (h.headersLen - LINE_SEPARATOR.length) else .ok h.headersLen
      else .ok h.headersLen)
    -- lines 1380-1382
    let toAddLen := szAdd cfg (szAdd cfg (szAdd cfg (szAdd cfg field.length FIELD_SEPARATOR.length) value.length)
      LINE_SEPARATOR.length) LINE_SEPARATOR.length
    if szAdd cfg backtrack toAddLen ≤ h.bufferLen then do
      let (okf, blk) ← httpHeaderStrncpy (m b) backtrack field true
      if okf = false then .ok ⟨.invalidCharacter, h, m.set b blk⟩
      else do
        let blk ← memWrite blk (backtrack + field.length) FIELD_SEPARATOR
        let (okv, blk) ← httpHeaderStrncpy blk (backtrack + field.length + FIELD_SEPARATOR.length) value false
        if okv = false then .ok ⟨.invalidCharacter, h, m.set b blk⟩
        else do
          let blk ← memWrite blk (backtrack + field.length + FIELD_SEPARATOR.length + value.length) HEADER_END_INDICATOR
          .ok ⟨.success, { h with headersLen := szAdd cfg backtrack toAddLen }, m.set b blk⟩
    else .ok ⟨.insufficientMemory, h, m⟩

/-- The Range value text assembled by addRangeHeader, core_http_client.c:1447-1499
(scratch array `rangeValueBuffer`, zero-initialised); returns `rangeValueBuffer[ 0 .. rangeValueLength )`. -/
def rangeValue (rangeStart rangeEnd : Int) : Run Bytes := do
  let buf := List.replicate MAX_RANGE_REQUEST_VALUE_LEN (0 : UInt8)
  let buf ← memWrite buf 0 RANGE_VALUE_PREFIX
  let len := RANGE_VALUE_PREFIX.length
  let (buf, n) ← convertInt32ToAscii rangeStart buf len (MAX_RANGE_REQUEST_VALUE_LEN - len)
  let len := len + n
  if rangeEnd ≠ RANGE_END_OF_FILE then do
    let buf ← memWrite buf len [DASH]
    let len := len + 1
    let (buf, n) ← convertInt32ToAscii rangeEnd buf len (MAX_RANGE_REQUEST_VALUE_LEN - len)
    memRead buf 0 (len + n)
  else if 0 ≤ rangeStart then do
    let buf ← memWrite buf len [DASH]
    memRead buf 0 (len + 1)
  else memRead buf 0 len

/-- addRangeHeader, core_http_client.c:1442-1509. -/
def addRangeHeader (cfg : Cfg) (m : Mem) (h : ReqHeaders) (rangeStart rangeEnd : Int) : Run ReqOut := do
  let value ← rangeValue rangeStart rangeEnd
  addHeader cfg m h (some RANGE_FIELD) (some value)

/-- `( pPath == NULL ) || ( pathLen == 0U )` ? HTTP_EMPTY_PATH : path, core_http_client.c:1541, 1558-1569. -/
def pathOrDefault (pPath : Option Bytes) : Bytes :=
  match pPath with
  | none => EMPTY_PATH
  | some [] => EMPTY_PATH
  | some p => p

/-- writeRequestLine, core_http_client.c:1513-1585. -/
def writeRequestLine (cfg : Cfg) (m : Mem) (h : ReqHeaders) (pMethod pPath : Option Bytes) : Run ReqOut :=
  match h.pBuffer, pMethod with
  | none, _ => .fault (.assertFail 1530)
  | _, none => .fault (.assertFail 1531)
  | some b, some method => do
    cAssert 1532 (decide (method.length ≠ 0))
    let path := pathOrDefault pPath
    let toAddLen := szAdd cfg (szAdd cfg (szAdd cfg (szAdd cfg (szAdd cfg method.length 1) 1)
      PROTOCOL_VERSION.length) LINE_SEPARATOR.length) path.length
    if szAdd cfg toAddLen h.headersLen > h.bufferLen then .ok ⟨.insufficientMemory, h, m⟩
    else do
      let blk ← memWrite (m b) 0 method
      let blk ← memWrite blk method.length [SPACE]
      let blk ← memWrite blk (method.length + 1) path
      let blk ← memWrite blk (method.length + 1 + path.length) [SPACE]
      let blk ← memWrite blk (method.length + 1 + path.length + 1) PROTOCOL_VERSION
      let blk ← memWrite blk (method.length + 1 + path.length + 1 + PROTOCOL_VERSION.length) LINE_SEPARATOR
      .ok ⟨.success, { h with headersLen := toAddLen }, m.set b blk⟩

/-- HTTPClient_InitializeRequestHeaders, core_http_client.c:1589-1685. The result is `none` for the request object when
pRequestHeaders is NULL. -/
def HTTPClient_InitializeRequestHeaders (cfg : Cfg) (m : Mem) (pRequestHeaders : Option ReqHeaders)
    (pRequestInfo : Option ReqInfo) : Run (Status × Option ReqHeaders × Mem) :=
  match pRequestHeaders with
  | none => .ok (.invalidParameter, none, m)
  | some h =>
    match h.pBuffer, pRequestInfo with
    | none, _ => .ok (.invalidParameter, some h, m)
    | _, none => .ok (.invalidParameter, some h, m)
    | some _, some info =>
      match info.pMethod, info.pHost with
      | none, _ => .ok (.invalidParameter, some h, m)
      | _, none => .ok (.invalidParameter, some h, m)
      | some method, some host =>
        if method.length = 0 then .ok (.invalidParameter, some h, m)
        else if host.length = 0 then .ok (.invalidParameter, some h, m)
        else do
          let r ← writeRequestLine cfg m { h with headersLen := 0 } info.pMethod info.pPath
          let r ← (if r.status = .success ∧ REQUEST_NO_USER_AGENT_FLAG &&& info.reqFlags = 0 then
              addHeader cfg r.mem r.hdrs (some USER_AGENT_FIELD) (some cfg.userAgent)
            else .ok r)
          let r ← (if r.status = .success then
              addHeader cfg r.mem r.hdrs (some HOST_FIELD) info.pHost
            else .ok r)
          let r ← (if r.status = .success ∧ REQUEST_KEEP_ALIVE_FLAG &&& info.reqFlags ≠ 0 then
              addHeader cfg r.mem r.hdrs (some CONNECTION_FIELD) (some KEEP_ALIVE_VALUE)
            else .ok r)
          .ok (r.status, some r.hdrs, r.mem)

/-- HTTPClient_AddHeader, core_http_client.c:1689-1745. -/
def HTTPClient_AddHeader (cfg : Cfg) (m : Mem) (pRequestHeaders : Option ReqHeaders)
    (pField pValue : Option Bytes) : Run (Status × Option ReqHeaders × Mem) :=
  match pRequestHeaders with
  | none => .ok (.invalidParameter, none, m)
  | some h =>
    match h.pBuffer, pField, pValue with
    | none, _, _ => .ok (.invalidParameter, some h, m)
    | _, none, _ => .ok (.invalidParameter, some h, m)
    | _, _, none => .ok (.invalidParameter, some h, m)
    | some _, some field, some value =>
      if field.length = 0 then .ok (.invalidParameter, some h, m)
      else if value.length = 0 then .ok (.invalidParameter, some h, m)
      else if h.headersLen > h.bufferLen then .ok (.invalidParameter, some h, m)
      else do
        let r ← addHeader cfg m h pField pValue
        .ok (r.status, some r.hdrs, r.mem)

/-- HTTPClient_AddRangeHeader, core_http_client.c:1749-1810. -/
def HTTPClient_AddRangeHeader (cfg : Cfg) (m : Mem) (pRequestHeaders : Option ReqHeaders)
    (rangeStart rangeEnd : Int) : Run (Status × Option ReqHeaders × Mem) :=
  match pRequestHeaders with
  | none => .ok (.invalidParameter, none, m)
  | some h =>
    match h.pBuffer with
    | none => .ok (.invalidParameter, some h, m)
    | some _ =>
      if h.headersLen > h.bufferLen then .ok (.invalidParameter, some h, m)
      else if rangeEnd < RANGE_END_OF_FILE then .ok (.invalidParameter, some h, m)
      else if rangeStart < 0 ∧ rangeEnd ≠ RANGE_END_OF_FILE then .ok (.invalidParameter, some h, m)
      else if rangeEnd ≠ RANGE_END_OF_FILE ∧ rangeStart > rangeEnd then .ok (.invalidParameter, some h, m)
      else if rangeStart = INT32_MIN then .ok (.invalidParameter, some h, m)
      else do
        let r ← addRangeHeader cfg m h rangeStart rangeEnd
        .ok (r.status, some r.hdrs, r.mem)

/-- addContentLengthHeader, core_http_client.c:1894-1922. -/
def addContentLengthHeader (cfg : Cfg) (m : Mem) (h : ReqHeaders) (contentLength : Nat) : Run ReqOut := do
  cAssert 1902 (decide (0 < contentLength))
  let buf := List.replicate MAX_INT32_NO_OF_DECIMAL_DIGITS (0 : UInt8)
  let (buf, n) ← convertInt32ToAscii (toInt32 contentLength) buf 0 MAX_INT32_NO_OF_DECIMAL_DIGITS
  let value ← memRead buf 0 n
  addHeader cfg m h (some CONTENT_LENGTH_FIELD) (some value)

end CoreHttp

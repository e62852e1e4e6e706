import Verif.Model.Parser
import Verif.Model.Send

/-! # Receiving and parsing a response: core_http_client.c:568-1234, 1985-2167 -/

namespace CoreHttp
variable {σ : Type}

/-- HTTPClient_ResponseHeaderParsingCallback_t, core_http_client.h:432-456: its onHeaderCallback member, which is NULL or a user function that gets
the locations of field and value, the bytes there, and the status code, and may change the environment. (pContext is part of the environment.) -/
inductive HeaderCb (σ : Type) where
  | null
  | user (f : σ → (fieldLoc : Nat) → (field : Bytes) → (valueLoc : Nat) → (value : Bytes) → (statusCode : Nat) → σ)

/-- HTTPResponse_t, core_http_client.h:469-582. `pBuffer` is a block; the pointers into it are offsets. `pHeaderParsingCallback` is `none` when
NULL. -/
structure Resp (σ : Type) where
  pBuffer : Option Nat
  bufferLen : Nat
  pHeaderParsingCallback : Option (HeaderCb σ)
  getTime : TimeFn σ
  pHeaders : Option Nat
  headersLen : Nat
  pBody : Option Nat
  bodyLen : Nat
  statusCode : Nat
  contentLength : Nat
  headerCount : Nat
  areHeadersComplete : Nat
  respOptionFlags : UInt32
  respFlags : UInt32

/-- HTTPParsingState_t, core_http_client_private.h:210-215. -/
inductive PState where
  | none | incomplete | complete
deriving DecidableEq, Repr

/-- HTTPParsingContext_t, core_http_client_private.h:295-308. `pResponse != NULL` is `bound`. -/
structure PCtx (S : Type) where
  parser : S
  state : PState
  bound : Bool
  isHeadResponse : Bool
  cur : Option Nat
  lastField : Option Nat
  lastFieldLen : Nat
  lastValue : Option Nat
  lastValueLen : Nat

/-- The state the callbacks work on: response object and parsing context. -/
structure RS (S σ : Type) where
  resp : Resp σ
  ctx : PCtx S

/-- HTTP_RESPONSE_DO_NOT_PARSE_BODY_FLAG, core_http_client.h:175. -/
def DO_NOT_PARSE_BODY_FLAG : UInt32 := 1
/-- HTTP_RESPONSE_CONNECTION_CLOSE_FLAG, core_http_client.h:146. -/
def CONNECTION_CLOSE_FLAG : UInt32 := 1
/-- HTTP_RESPONSE_CONNECTION_KEEP_ALIVE_FLAG, core_http_client.h:154. -/
def CONNECTION_KEEP_ALIVE_FLAG : UInt32 := 2
/-- HTTP_MINIMUM_REQUEST_LINE_LENGTH, core_http_client_private.h:204. -/
def MINIMUM_REQUEST_LINE_LENGTH : Nat := 16
/-- HTTP_METHOD_HEAD, core_http_client.h:65. -/
def METHOD_HEAD : Bytes := ascii "HEAD"

/-- Bytes at [loc, loc + len) of a block, as a reader of a returned pointer would see them. -/
def slice (blk : Bytes) (loc len : Nat) : Bytes := (blk.drop loc).take len

/-- processCompleteHeader, core_http_client.c:568-613. `b` is the block of the response buffer. The user's callback is taken to read all the
bytes it is told about: a location outside the block is a fault. -/
def processCompleteHeader {S : Type} (cfg : Cfg) (b : Nat) (h : RS S σ) : M PLog σ (RS S σ) :=
  match h.ctx.lastField, h.ctx.lastValue with
  | some f, some v => do
    mAssert 582 (decide (h.resp.headerCount < 2 ^ cfg.sizeBits - 1))
    let resp := { h.resp with headerCount := h.resp.headerCount + 1 }
    match resp.pHeaderParsingCallback with
    | some .null => M.fault .nullCall
    | some (.user cb) => do
      let w ← M.world
      let field ← M.ofRun (memRead (w.mem b) f h.ctx.lastFieldLen)
      let value ← M.ofRun (memRead (w.mem b) v h.ctx.lastValueLen)
      M.setEnv (cb w.env f field v value resp.statusCode)
      M.emit (.header f field v value resp.statusCode)
    | none => pure ()
    pure ⟨resp, { h.ctx with lastField := none, lastFieldLen := 0, lastValue := none, lastValueLen := 0 }⟩
  | _, _ => pure h

/-- httpParserOnMessageBeginCallback, core_http_client.c:617-632. -/
def onMessageBegin {S : Type} (h : RS S σ) : M PLog σ (CbRet × RS S σ) :=
  pure (.continue_, { h with ctx := { h.ctx with state := .incomplete } })

/-- httpParserOnStatusCallback, core_http_client.c:636-673. -/
def onStatus {S : Type} (loc len code : Nat) (h : RS S σ) : M PLog σ (CbRet × RS S σ) := do
  mAssert 650 h.ctx.bound
  pure (.continue_, ⟨{ h.resp with statusCode := code % 65536 },
    { h.ctx with cur := some (loc + len), lastField := none, lastFieldLen := 0, lastValue := none, lastValueLen := 0 }⟩)

/-- httpParserOnStatusCompleteCallback, core_http_client.c:677-705. -/
def onStatusComplete {S : Type} (code : Nat) (h : RS S σ) : M PLog σ (CbRet × RS S σ) := do
  mAssert 688 h.ctx.bound
  pure (.continue_, ⟨{ h.resp with statusCode := code % 65536 },
    { h.ctx with lastField := none, lastFieldLen := 0, lastValue := none, lastValueLen := 0 }⟩)

/-- "If this is the first header field, it is the start of the headers", core_http_client.c:727-730. -/
def headersStart : Option Nat → Nat → Option Nat
  | none, loc => some loc
  | some p, _ => some p

/-- httpParserOnHeaderFieldCallback, core_http_client.c:709-762. -/
def onHeaderField {S : Type} (cfg : Cfg) (b : Nat) (loc len : Nat) (h : RS S σ) : M PLog σ (CbRet × RS S σ) := do
  mAssert 723 h.ctx.bound
  let resp := { h.resp with pHeaders := headersStart h.resp.pHeaders loc }
  let h ← processCompleteHeader cfg b ⟨resp, { h.ctx with cur := some (loc + len) }⟩
  match h.ctx.lastField with
  | none => pure (.continue_, { h with ctx := { h.ctx with lastField := some loc, lastFieldLen := len } })
  | some _ => do
    mAssert 752 (decide (h.ctx.lastFieldLen + len ≤ 2 ^ cfg.sizeBits - 1))
    pure (.continue_, { h with ctx := { h.ctx with lastFieldLen := h.ctx.lastFieldLen + len } })

/-- httpParserOnHeaderValueCallback, core_http_client.c:766-806. -/
def onHeaderValue {S : Type} (cfg : Cfg) (loc len : Nat) (h : RS S σ) : M PLog σ (CbRet × RS S σ) := do
  let ctx := { h.ctx with cur := some (loc + len) }
  let ctx := match ctx.lastValue with
    | none => { ctx with lastValue := some loc, lastValueLen := len }
    | some _ => { ctx with lastValueLen := szAdd cfg ctx.lastValueLen len }
  mAssert 798 ctx.lastField.isSome
  pure (.continue_, { h with ctx := ctx })

/-- The length of the headers, core_http_client.c:837-852. -/
def headersLength (pHeaders : Option Nat) (cur : Nat) : M PLog σ Nat :=
  match pHeaders with
  | some p => do
    mAssert 842 (decide (p < cur))
    pure (cur - p)
  | none => pure 0

/-- httpParserOnHeadersCompleteCallback, core_http_client.c:810-905. -/
def onHeadersComplete {S : Type} (cfg : Cfg) (b : Nat) (contentLength : UInt64) (connClose keepAlive : Bool) (h : RS S σ) :
    M PLog σ (CbRet × RS S σ) :=
  match h.ctx.cur with
  | none => M.fault (.assertFail 823)
  | some cur => do
    mAssert 822 h.ctx.bound
    mAssert 831 (decide (cur < h.resp.bufferLen))
    let headersLen ← headersLength h.resp.pHeaders cur
    let resp := { h.resp with
      areHeadersComplete := 1
      headersLen := headersLen
      contentLength := if contentLength ≠ 18446744073709551615 then contentLength.toNat % 2 ^ cfg.sizeBits else 0
      respFlags := (h.resp.respFlags ||| (if connClose then CONNECTION_CLOSE_FLAG else 0))
        ||| (if keepAlive then CONNECTION_KEEP_ALIVE_FLAG else 0) }
    let ret : CbRet := if h.ctx.isHeadResponse then .noBody else .continue_
    let h ← processCompleteHeader cfg b ⟨resp, h.ctx⟩
    let ret : CbRet := if h.resp.respOptionFlags &&& DO_NOT_PARSE_BODY_FLAG ≠ 0 then .pause else ret
    pure (ret, h)

/-- httpParserOnBodyCallback, core_http_client.c:909-977. -/
def onBody {S : Type} (cfg : Cfg) (b : Nat) (loc len : Nat) (h : RS S σ) : M PLog σ (CbRet × RS S σ) := do
  mAssert 925 h.ctx.bound
  mAssert 928 (decide (loc < h.resp.bufferLen))
  let (pBody, bodyLen) := match h.resp.pBody with
    | none => (loc, 0)
    | some p => (p, h.resp.bodyLen)
  let next := pBody + bodyLen
  if loc > next then do
    -- memmove( pNextWriteLoc, pLoc, length )
    let w ← M.world
    let bytes ← M.ofRun (memRead (w.mem b) loc len)
    let blk ← M.ofRun (memWrite (w.mem b) next bytes)
    M.setMem (w.mem.set b blk)
  else pure ()
  pure (.continue_, ⟨{ h.resp with pBody := some pBody, bodyLen := szAdd cfg bodyLen len },
    { h.ctx with cur := some (loc + len) }⟩)

/-- httpParserOnMessageCompleteCallback, core_http_client.c:981-996. -/
def onMessageComplete {S : Type} (h : RS S σ) : M PLog σ (CbRet × RS S σ) :=
  pure (.continue_, { h with ctx := { h.ctx with state := .complete } })

/-- The callbacks registered for receiving, core_http_client.c:1009-1017; `base` is the location of the data being parsed. -/
def recvCallback {S : Type} (cfg : Cfg) (b base : Nat) : PEv → RS S σ → M PLog σ (CbRet × RS S σ)
  | .messageBegin, h => onMessageBegin h
  | .status off len code, h => onStatus (base + off) len code h
  | .statusComplete code, h => onStatusComplete code h
  | .headerField off len, h => onHeaderField cfg b (base + off) len h
  | .headerValue off len, h => onHeaderValue cfg (base + off) len h
  | .headersComplete _ cl cc ka, h => onHeadersComplete cfg b cl cc ka h
  | .body off len, h => onBody cfg b (base + off) len h
  | .messageComplete, h => onMessageComplete h

/-- initializeParsingContextForFirstResponse, core_http_client.c:1000-1037. strncmp of the first 4 bytes with "HEAD". -/
def initializeParsingContext (P : Parser) (pRequestHeaders : Option ReqHeaders) : M PLog σ (PCtx P.St) :=
  match pRequestHeaders with
  | none => M.fault (.assertFail 1004)
  | some rh => do
    mAssert 1005 (decide (MINIMUM_REQUEST_LINE_LENGTH ≤ rh.headersLen))
    match rh.pBuffer with
    | none => M.fault .nullCall
    | some rb => do
      let w ← M.world
      let start ← M.ofRun (memRead (w.mem rb) 0 METHOD_HEAD.length)
      pure ⟨P.init, .none, false, decide (start = METHOD_HEAD), none, none, 0, none, 0⟩

/-- processLlhttpError, core_http_client.c:1041-1157. -/
def processLlhttpError : Errno → Status
  | .ok => .success
  | .pausedUpgrade => .success
  | .invalidEofState => .success
  | .closedConnection => .extraneousResponseData
  | .invalidChunkSize => .invalidChunkHeader
  | .invalidVersion => .invalidProtocolVersion
  | .invalidStatus => .invalidStatusCode
  | .strict => .invalidCharacter
  | .invalidConstant => .invalidCharacter
  | .lfExpected => .invalidCharacter
  | .invalidHeaderToken => .invalidCharacter
  | .invalidContentLength => .invalidContentLength
  | .unexpectedContentLength => .invalidContentLength
  | .paused => .parserPaused
  | .user => .parserInternalError
  | .other _ => .parserInternalError

/-- The initialisation part of parseHttpResponse, core_http_client.c:1172-1192. -/
def bindResponse {S : Type} (h : RS S σ) : RS S σ :=
  if h.ctx.bound = false then
    ⟨{ h.resp with statusCode := 0, pBody := none, bodyLen := 0, pHeaders := none, headersLen := 0, headerCount := 0, respFlags := 0 },
      { h.ctx with bound := true, cur := some 0 }⟩
  else h

/-- parseHttpResponse, core_http_client.c:1161-1234. -/
def parseHttpResponse (P : Parser) (cfg : Cfg) (b : Nat) (h : RS P.St σ) (parseLen : Nat) : M PLog σ (Status × RS P.St σ) := do
  let h := bindResponse h
  match h.ctx.cur with
  | none => M.fault .nullCall
  | some start => do
    let w ← M.world
    let data ← M.ofRun (memRead (w.mem b) start parseLen)
    M.emit (.parserCall start data)
    let (er, ep, s, h) ← runTree b start data (recvCallback cfg b start) (P.exec h.ctx.parser data) h
    let s := if er = .pausedUpgrade then P.resume s else s
    -- llhttp_resume_after_upgrade clears the error
    let er' := if er = .pausedUpgrade then .ok else er
    let cur := if er = .paused then start + ep else start + parseLen
    pure (processLlhttpError er', { h with ctx := { h.ctx with parser := s, cur := some cur } })

/-- getFinalResponseStatus, core_http_client.c:1985-2033. -/
def getFinalResponseStatus (state : PState) (totalReceived : Nat) (resp : Resp σ) : M PLog σ Status := do
  mAssert 1993 (decide (totalReceived ≤ resp.bufferLen))
  pure (match state with
    | .none => .noResponse
    | .incomplete =>
      if resp.respOptionFlags &&& DO_NOT_PARSE_BODY_FLAG = 0 then
        if totalReceived = resp.bufferLen then .insufficientMemory else .partialResponse
      else .success
    | .complete => .success)

/-- The loop of HTTPClient_ReceiveAndParseHttpResponse, core_http_client.c:2070-2140. `total` is totalReceived, `last` is lastRecvTimeMs;
returns the status, totalReceived and the callback state when the loop ends. -/
def recvLoop (P : Parser) (cfg : Cfg) (recv : σ → Nat → Int × Bytes × σ) (timeout : UInt32) (b : Nat) :
    (fuel : Nat) → (total : Nat) → (last : UInt32) → RS P.St σ → M PLog σ (Status × Nat × RS P.St σ)
  | 0, _, _, _ => M.more
  | fuel + 1, total, last, h => do
    let w ← M.world
    let r := recv w.env (h.resp.bufferLen - total)
    let blk ← M.ofRun (memWrite (w.mem b) total r.2.1)
    M.setEnv r.2.2
    M.setMem (w.mem.set b blk)
    M.emit (.recv total (h.resp.bufferLen - total) r.1 (slice blk total r.1.toNat))
    if r.1 < 0 then pure (.networkError, total, h)
    else if r.1 > 0 then do
      let now ← readClock h.resp.getTime
      let total := total + r.1.toNat
      let (st, h) ← parseHttpResponse P cfg b h r.1.toNat
      if st = .success ∧ h.ctx.state ≠ .complete ∧ total < h.resp.bufferLen then
        recvLoop P cfg recv timeout b fuel total now h
      else pure (st, total, h)
    else do
      let now ← readClock h.resp.getTime
      if now - last ≥ timeout then do
        -- final parse with length zero
        let (st, h) ← parseHttpResponse P cfg b h 0
        pure (st, total, h)
      else if h.ctx.state ≠ .complete ∧ total < h.resp.bufferLen then
        recvLoop P cfg recv timeout b fuel total last h
      else pure (.success, total, h)

/-- What follows the loop, core_http_client.c:2142-2166. -/
def finishReceive {S : Type} (cfg : Cfg) (st : Status) (total : Nat) (h : RS S σ) : M PLog σ (Status × Resp σ) := do
  let (st, h) ← (if st = .parserPaused ∧ h.resp.respOptionFlags &&& DO_NOT_PARSE_BODY_FLAG ≠ 0 then
      match h.ctx.cur with
      | none => M.fault .nullCall
      | some cur => pure (Status.success,
          { h with resp := { h.resp with pBody := some cur, bodyLen := szSub cfg total cur } })
    else pure (st, h))
  if st = .success then do
    let st ← getFinalResponseStatus h.ctx.state total h.resp
    pure (st, h.resp)
  else pure (st, h.resp)

/-- HTTPClient_ReceiveAndParseHttpResponse, core_http_client.c:2037-2167. -/
def HTTPClient_ReceiveAndParseHttpResponse (P : Parser) (cfg : Cfg) (fuel : Nat) (pTransport : Option (Transport σ))
    (pResponse : Option (Resp σ)) (pRequestHeaders : Option ReqHeaders) : M PLog σ (Status × Resp σ) :=
  match pTransport with
  | none => M.fault (.assertFail 2049)
  | some T =>
    match T.recv, pResponse, pRequestHeaders with
    | none, _, _ => M.fault (.assertFail 2050)
    | _, none, _ => M.fault (.assertFail 2051)
    | _, _, none => M.fault (.assertFail 2052)
    | some recv, some resp, some rh => do
      let ctx ← initializeParsingContext P (some rh)
      let timeout := retryTimeout resp.getTime cfg.recvTimeoutMs
      let last ← readClock resp.getTime
      match resp.pBuffer with
      | none => M.fault .nullCall
      | some b => do
        let (st, total, h) ← recvLoop P cfg recv timeout b fuel 0 last ⟨resp, ctx⟩
        finishReceive cfg st total h

/-- HTTPClient_Send, core_http_client.c:2214-2312. `reqBody` is pRequestBodyBuf. Returns the status, the request object and the response
object. -/
def HTTPClient_Send (P : Parser) (cfg : Cfg) (fuel : Nat) (pTransport : Option (Transport σ)) (pRequestHeaders : Option ReqHeaders)
    (reqBody : Option Nat) (reqBodyBufLen : Nat) (pResponse : Option (Resp σ)) (sendFlags : UInt32) :
    M PLog σ (Status × Option ReqHeaders × Option (Resp σ)) :=
  match pTransport with
  | none => pure (.invalidParameter, pRequestHeaders, pResponse)
  | some T =>
    if T.send.isNone then pure (.invalidParameter, pRequestHeaders, pResponse)
    else if T.recv.isNone then pure (.invalidParameter, pRequestHeaders, pResponse)
    else match pRequestHeaders with
    | none => pure (.invalidParameter, pRequestHeaders, pResponse)
    | some rh =>
      if rh.pBuffer.isNone then pure (.invalidParameter, pRequestHeaders, pResponse)
      else if rh.headersLen < MINIMUM_REQUEST_LINE_LENGTH then pure (.invalidParameter, pRequestHeaders, pResponse)
      else if rh.headersLen > rh.bufferLen then pure (.invalidParameter, pRequestHeaders, pResponse)
      else match pResponse with
      | none => pure (.invalidParameter, pRequestHeaders, pResponse)
      | some resp =>
        if resp.pBuffer.isNone then pure (.invalidParameter, pRequestHeaders, pResponse)
        else if resp.bufferLen = 0 then pure (.invalidParameter, pRequestHeaders, pResponse)
        else if reqBody.isNone ∧ reqBodyBufLen > 0 then pure (.invalidParameter, pRequestHeaders, pResponse)
        else if reqBodyBufLen > 2147483647 then pure (.invalidParameter, pRequestHeaders, pResponse)
        else do
          let resp := { resp with getTime := match resp.getTime with | .null => .zero | t => t }
          let (st, orh) ← sendHttpRequest cfg fuel (some T) resp.getTime (some rh) reqBody reqBodyBufLen sendFlags
          if st = .success then do
            let (st, resp) ← HTTPClient_ReceiveAndParseHttpResponse P cfg fuel (some T) (some resp) orh
            pure (st, orh, some resp)
          else pure (st, orh, some resp)

end CoreHttp

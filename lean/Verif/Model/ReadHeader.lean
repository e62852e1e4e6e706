import Verif.Model.Receive

/-! # HTTPClient_ReadHeader and HTTPClient_strerror: core_http_client.c:529-563, 2317-2702 -/

namespace CoreHttp
variable {σ : Type}

/-- Subtract `offset` ('a' - 'A' = 32) from 'a'..'z', core_http_client.c:545-553. (`char` may be signed: bytes from 0x80 on are then negative and not in
the range either, and the comparison of two `char`s is that of two bytes.) -/
def cmpUpper (c : UInt8) : UInt8 := if c ≥ 97 ∧ c ≤ 122 then c - 32 else c

/-- The loop of caseInsensitiveStringCmp, core_http_client.c:539-560: the index at which it ends. -/
def cmpLoop (str1 str2 : Bytes) (n i : Nat) : Run Nat :=
  if i < n then
    match str1[i]?, str2[i]? with
    | some a, some b => if cmpUpper a ≠ cmpUpper b then .ok i else cmpLoop str1 str2 n (i + 1)
    | _, _ => .fault .oob
  else .ok i
termination_by n - i

/-- caseInsensitiveStringCmp, core_http_client.c:529-563. -/
def caseInsensitiveStringCmp (str1 str2 : Bytes) (n : Nat) : Run Int := do
  let i ← cmpLoop str1 str2 n 0
  pure (if i = n then 0 else 1)

/-- findHeaderContext_t, core_http_client_private.h:222-230: the flags and what the output pointers point to. (The field searched for is a
parameter of the callbacks; the flags are 0 or 1.) -/
structure FindCtx where
  fieldFound : Bool
  valueFound : Bool
  valueLoc : Option Nat
  valueLen : Nat
deriving DecidableEq, Repr

/-- findHeaderFieldParserCallback, core_http_client.c:2317-2355. The field name is read from block `b`, where the data is at `base`. -/
def findHeaderFieldCb (b base : Nat) (field : Bytes) (off len : Nat) (h : FindCtx) : M PLog σ (CbRet × FindCtx) := do
  mAssert 2326 (decide (len > 0))
  mAssert 2331 (decide (field.length > 0))
  mAssert 2334 (!h.fieldFound)
  mAssert 2335 (!h.valueFound)
  if len = field.length then do
    let w ← M.world
    let found ← M.ofRun (memRead (w.mem b) (base + off) len)
    let c ← M.ofRun (caseInsensitiveStringCmp field found len)
    pure (.continue_, if c = 0 then { h with fieldFound := true } else h)
  else pure (.continue_, h)

/-- findHeaderValueParserCallback, core_http_client.c:2359-2414. -/
def findHeaderValueCb (base : Nat) (field : Bytes) (off len : Nat) (h : FindCtx) : M PLog σ (CbRet × FindCtx) := do
  mAssert 2373 (decide (field.length > 0))
  mAssert 2378 (!h.valueFound)
  if h.fieldFound then
    pure (.user, if len > 0 then { h with valueLoc := some (base + off), valueLen := len, valueFound := true }
      else { h with valueLoc := none, valueLen := 0, valueFound := true })
  else pure (.continue_, h)

/-- The callbacks set in findHeaderInResponse, core_http_client.c:2473-2476; findHeaderOnHeaderCompleteCallback, 2418-2446. A callback that is not
set counts as "continue". -/
def findCallback (b base : Nat) (field : Bytes) : PEv → FindCtx → M PLog σ (CbRet × FindCtx)
  | .headerField off len, h => findHeaderFieldCb b base field off len h
  | .headerValue off len, h => findHeaderValueCb base field off len h
  | .headersComplete _ _ _ _, h => pure (.noBody, h)
  | _, h => pure (.continue_, h)

/-- findHeaderInResponse, core_http_client.c:2450-2553. Returns the status and the contents of the output variables. -/
def findHeaderInResponse (P : Parser) (b bufferLen : Nat) (field : Bytes) (valueLoc : Option Nat) (valueLen : Nat) :
    M PLog σ (Status × Option Nat × Nat) := do
  let w ← M.world
  let data ← M.ofRun (memRead (w.mem b) 0 bufferLen)
  M.emit (.parserCall 0 data)
  let (er, _, _, h) ← runTree b 0 data (findCallback b 0 field) (P.exec P.init data) ⟨false, false, valueLoc, valueLen⟩
  let st ← (if h.fieldFound = false then do
      mAssert 2488 (!h.valueFound)
      pure Status.headerNotFound
    else if h.valueFound = false then pure .invalidResponse
    else do
      mAssert 2513 (h.fieldFound && h.valueFound)
      pure .success)
  let st := if st = .success ∧ er ≠ .user then .parserInternalError
    else if st = .headerNotFound ∧ er ≠ .ok then .invalidResponse
    else st
  pure (st, h.valueLoc, h.valueLen)

/-- HTTPClient_ReadHeader, core_http_client.c:2557-2619. `pField` is the field name (with length fieldLen). `pValueLoc` and `pValueLen` are `none`
when NULL, otherwise the contents of the variable they point to. -/
def HTTPClient_ReadHeader (P : Parser) (pResponse : Option (Resp σ)) (pField : Option Bytes) (pValueLoc : Option (Option Nat))
    (pValueLen : Option Nat) : M PLog σ (Status × Option (Option Nat) × Option Nat) :=
  match pResponse with
  | none => pure (.invalidParameter, pValueLoc, pValueLen)
  | some resp =>
    match resp.pBuffer with
    | none => pure (.invalidParameter, pValueLoc, pValueLen)
    | some b =>
      if resp.bufferLen = 0 then pure (.invalidParameter, pValueLoc, pValueLen)
      else match pField with
      | none => pure (.invalidParameter, pValueLoc, pValueLen)
      | some field =>
        if field.length = 0 then pure (.invalidParameter, pValueLoc, pValueLen)
        else match pValueLoc, pValueLen with
        | some l, some n => do
          let (st, l, n) ← findHeaderInResponse P b resp.bufferLen field l n
          pure (st, some l, some n)
        | _, _ => pure (.invalidParameter, pValueLoc, pValueLen)

/-- The values of HTTPStatus_t, core_http_client.h:195-351: enumerators count from 0. -/
def Status.code : Status → Int
  | .success => 0
  | .invalidParameter => 1
  | .networkError => 2
  | .partialResponse => 3
  | .noResponse => 4
  | .insufficientMemory => 5
  | .extraneousResponseData => 6
  | .invalidChunkHeader => 7
  | .invalidProtocolVersion => 8
  | .invalidStatusCode => 9
  | .invalidCharacter => 10
  | .invalidContentLength => 11
  | .parserPaused => 12
  | .parserInternalError => 13
  | .headerNotFound => 14
  | .invalidResponse => 15

/-- HTTPClient_strerror, core_http_client.c:2623-2702, on any integer value of the argument; `none` is NULL. -/
def HTTPClient_strerror (status : Int) : Option String :=
  if status = Status.success.code then some "HTTPSuccess"
  else if status = Status.invalidParameter.code then some "HTTPInvalidParameter"
  else if status = Status.networkError.code then some "HTTPNetworkError"
  else if status = Status.partialResponse.code then some "HTTPPartialResponse"
  else if status = Status.noResponse.code then some "HTTPNoResponse"
  else if status = Status.insufficientMemory.code then some "HTTPInsufficientMemory"
  else if status = Status.extraneousResponseData.code then some "HTTPSecurityAlertExtraneousResponseData"
  else if status = Status.invalidChunkHeader.code then some "HTTPSecurityAlertInvalidChunkHeader"
  else if status = Status.invalidProtocolVersion.code then some "HTTPSecurityAlertInvalidProtocolVersion"
  else if status = Status.invalidStatusCode.code then some "HTTPSecurityAlertInvalidStatusCode"
  else if status = Status.invalidCharacter.code then some "HTTPSecurityAlertInvalidCharacter"
  else if status = Status.invalidContentLength.code then some "HTTPSecurityAlertInvalidContentLength"
  else if status = Status.parserPaused.code then some "HTTPParserPaused"
  else if status = Status.parserInternalError.code then some "HTTPParserInternalError"
  else if status = Status.headerNotFound.code then some "HTTPHeaderNotFound"
  else if status = Status.invalidResponse.code then some "HTTPInvalidResponse"
  else none

end CoreHttp

import Verif.Model.World

/-!
# Sending: HTTPClient_SendHttpData, HTTPClient_SendHttpHeaders, sendHttpBody, sendHttpRequest

Loops take fuel: the number of transport calls the run is observed for. A run that uses it up is `Run.more`.
-/

namespace CoreHttp
variable {π σ : Type}

/-- The while loop of HTTPClient_SendHttpData, core_http_client.c:1842-1887. `off` is `pIndex - pData` in block `b`, `remaining` is
`bytesRemaining`, `last` is `lastSendTimeMs`. The data offered is read from memory at the time of each call. -/
def sendLoop (send : σ → Bytes → Int × σ) (clock : TimeFn σ) (retryTimeoutMs : UInt32) (b : Nat) :
    (fuel : Nat) → (off remaining : Nat) → (last : UInt32) → M π σ Status
  | fuel, off, remaining, last =>
    if remaining = 0 then pure .success
    else match fuel with
      | 0 => M.more
      | fuel + 1 => do
        let w ← M.world
        let data ← M.ofRun (memRead (w.mem b) off remaining)
        let r := send w.env data
        M.setEnv r.2
        M.emit (.send data r.1)
        if r.1 < 0 then pure .networkError
        else if r.1 > 0 then do
          mAssert 1861 (decide (r.1.toNat ≤ remaining))
          let now ← readClock clock
          sendLoop send clock retryTimeoutMs b fuel (off + r.1.toNat) (remaining - r.1.toNat) now
        else do
          let now ← readClock clock
          -- uint32_t subtraction wraps
          if now - last ≥ retryTimeoutMs then pure .networkError
          else sendLoop send clock retryTimeoutMs b fuel off remaining last

/-- The effective retry timeout: 0 without a user clock, core_http_client.c:1832-1835 and 2060-2063. -/
def retryTimeout (clock : TimeFn σ) (configured : UInt32) : UInt32 := if clock.isZero then 0 else configured

/-- HTTPClient_SendHttpData, core_http_client.c:1814-1890. `pData` is the block holding the data (at offset 0). -/
def HTTPClient_SendHttpData (cfg : Cfg) (fuel : Nat) (pTransport : Option (Transport σ)) (clock : TimeFn σ)
    (pData : Option Nat) (dataLen : Nat) : M π σ Status :=
  match pTransport with
  | none => M.fault (.assertFail 1826)
  | some T =>
    match T.send, pData with
    | none, _ => M.fault (.assertFail 1827)
    | _, none => M.fault (.assertFail 1828)
    | some send, some b => do
      let last ← readClock clock
      sendLoop send clock (retryTimeout clock cfg.sendTimeoutMs) b fuel 0 dataLen last

/-- HTTP_SEND_DISABLE_CONTENT_LENGTH_FLAG, core_http_client.h:92. -/
def SEND_DISABLE_CONTENT_LENGTH_FLAG : UInt32 := 1

/-- HTTPClient_SendHttpHeaders, core_http_client.c:1926-1960. Returns the status and the request object. -/
def HTTPClient_SendHttpHeaders (cfg : Cfg) (fuel : Nat) (pTransport : Option (Transport σ)) (clock : TimeFn σ)
    (pRequestHeaders : Option ReqHeaders) (reqBodyLen : Nat) (sendFlags : UInt32) : M π σ (Status × Option ReqHeaders) :=
  match pTransport with
  | none => M.fault (.assertFail 1935)
  | some T =>
    match T.send, pRequestHeaders with
    | none, _ => M.fault (.assertFail 1936)
    | _, none => M.fault (.assertFail 1937)
    | some _, some h => do
      let w ← M.world
      let r ← (if sendFlags &&& SEND_DISABLE_CONTENT_LENGTH_FLAG = 0 ∧ reqBodyLen > 0 then
          M.ofRun (addContentLengthHeader cfg w.mem h reqBodyLen)
        else pure ⟨.success, h, w.mem⟩)
      M.setMem r.mem
      if r.status = .success then do
        let st ← HTTPClient_SendHttpData cfg fuel pTransport clock r.hdrs.pBuffer r.hdrs.headersLen
        pure (st, some r.hdrs)
      else pure (r.status, some r.hdrs)

/-- sendHttpBody, core_http_client.c:1964-1981. -/
def sendHttpBody (cfg : Cfg) (fuel : Nat) (pTransport : Option (Transport σ)) (clock : TimeFn σ)
    (pRequestBodyBuf : Option Nat) (reqBodyBufLen : Nat) : M π σ Status :=
  match pTransport with
  | none => M.fault (.assertFail 1971)
  | some T =>
    match T.send, pRequestBodyBuf with
    | none, _ => M.fault (.assertFail 1972)
    | _, none => M.fault (.assertFail 1973)
    | some _, some _ => HTTPClient_SendHttpData cfg fuel pTransport clock pRequestBodyBuf reqBodyBufLen

/-- sendHttpRequest, core_http_client.c:2171-2210. -/
def sendHttpRequest (cfg : Cfg) (fuel : Nat) (pTransport : Option (Transport σ)) (clock : TimeFn σ)
    (pRequestHeaders : Option ReqHeaders) (pRequestBodyBuf : Option Nat) (reqBodyBufLen : Nat) (sendFlags : UInt32) :
    M π σ (Status × Option ReqHeaders) := do
  mAssert 2180 pTransport.isSome
  mAssert 2181 pRequestHeaders.isSome
  mAssert 2182 (pRequestBodyBuf.isSome || decide (reqBodyBufLen = 0))
  mAssert 2184 (match clock with | .null => false | _ => true)
  let r ← HTTPClient_SendHttpHeaders cfg fuel pTransport clock pRequestHeaders reqBodyBufLen sendFlags
  if r.1 = .success then
    match pRequestBodyBuf with
    | some b => do
      let st ← sendHttpBody cfg fuel pTransport clock (some b) reqBodyBufLen
      pure (st, r.2)
    | none => pure r
  else pure r

end CoreHttp

import Verif.Model.Send

/-!
# Sending a request whose body lies anywhere in memory

In Model/Send the request body is at the beginning of its block. Here `pRequestBodyBuf` is any pointer: a block and an offset in it, which may be the block of
the request headers. The functions are those of Model/Send, and the same for the offset 0 (`sendHttpRequestAt_zero` in Props/BodyAt).
-/

namespace CoreHttp
variable {π σ : Type}

/-- HTTPClient_SendHttpData, core_http_client.c:1814-1890, with `pData` pointing to offset `off` of block `b`. -/
def HTTPClient_SendHttpDataAt (cfg : Cfg) (fuel : Nat) (pTransport : Option (Transport σ)) (clock : TimeFn σ)
    (pData : Option (Nat × Nat)) (dataLen : Nat) : M π σ Status :=
  match pTransport with
  | none => M.fault (.assertFail 1826)
  | some T =>
    match T.send, pData with
    | none, _ => M.fault (.assertFail 1827)
    | _, none => M.fault (.assertFail 1828)
    | some send, some (b, off) => do
      let last ← readClock clock
      sendLoop send clock (retryTimeout clock cfg.sendTimeoutMs) b fuel off dataLen last

/-- sendHttpBody, core_http_client.c:1964-1981. -/
def sendHttpBodyAt (cfg : Cfg) (fuel : Nat) (pTransport : Option (Transport σ)) (clock : TimeFn σ)
    (pRequestBodyBuf : Option (Nat × Nat)) (reqBodyBufLen : Nat) : M π σ Status :=
  match pTransport with
  | none => M.fault (.assertFail 1971)
  | some T =>
    match T.send, pRequestBodyBuf with
    | none, _ => M.fault (.assertFail 1972)
    | _, none => M.fault (.assertFail 1973)
    | some _, some _ => HTTPClient_SendHttpDataAt cfg fuel pTransport clock pRequestBodyBuf reqBodyBufLen

/-- sendHttpRequest, core_http_client.c:2171-2210. -/
def sendHttpRequestAt (cfg : Cfg) (fuel : Nat) (pTransport : Option (Transport σ)) (clock : TimeFn σ)
    (pRequestHeaders : Option ReqHeaders) (pRequestBodyBuf : Option (Nat × Nat)) (reqBodyBufLen : Nat) (sendFlags : UInt32) :
    M π σ (Status × Option ReqHeaders) := do
  mAssert 2180 pTransport.isSome
  mAssert 2181 pRequestHeaders.isSome
  mAssert 2182 (pRequestBodyBuf.isSome || decide (reqBodyBufLen = 0))
  mAssert 2184 (match clock with | .null => false | _ => true)
  let r ← HTTPClient_SendHttpHeaders cfg fuel pTransport clock pRequestHeaders reqBodyBufLen sendFlags
  if r.1 = .success then
    match pRequestBodyBuf with
    | some p => do
      let st ← sendHttpBodyAt cfg fuel pTransport clock (some p) reqBodyBufLen
      pure (st, r.2)
    | none => pure r
  else pure r

end CoreHttp

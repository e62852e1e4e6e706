import Verif.Spec.Receive
import Verif.Spec.Send

/-! # Vocabulary for stating properties of HTTPClient_Send -/

namespace CoreHttp.Spec
open CoreHttp
variable {σ : Type}

/-- The request body: the first `len` bytes of the block, nothing for NULL. -/
def bodyOf (m : Mem) (body : Option Nat) (len : Nat) : Bytes :=
  match body with
  | none => []
  | some bb => (m bb).take len

/-- The documented parameter conditions of HTTPClient_Send (core_http_client.h, HTTPClient_Send): a transport with both functions; request headers with
a buffer, at least a minimal request line (16 bytes, "HEAD / HTTP/1.1" and a line end) and no more than the buffer; a response object with
a non-empty buffer; a body buffer when there is a body; a body length that fits int32_t. -/
structure ParamsOk (T : Option (Transport σ)) (rh : Option ReqHeaders) (body : Option Nat) (bodyLen : Nat) (resp : Option (Resp σ)) : Prop where
  transport : ∃ t s r, T = some t ∧ t.send = some s ∧ t.recv = some r
  request : ∃ h b, rh = some h ∧ h.pBuffer = some b ∧ 16 ≤ h.headersLen ∧ h.headersLen ≤ h.bufferLen
  response : ∃ q b, resp = some q ∧ q.pBuffer = some b ∧ q.bufferLen ≠ 0
  body : body = none → bodyLen = 0
  bodyLen : bodyLen ≤ 2147483647

/-- What the caller must provide for HTTPClient_Send, beyond the parameters the library checks: transport functions honouring their contracts,
buffers of at least the claimed lengths, sizes countable in size_t (with room for the Content-Length line), a body that is not in the block of
the request headers. The response buffer may be the request's. The parser honours the parser contract. -/
structure CallPre (strict : Bool) (P : Parser) (cfg : Cfg) (T : Transport σ) (send : σ → Bytes → Int × σ) (recv : σ → Nat → Int × Bytes × σ)
    (rh : ReqHeaders) (rb : Nat) (body : Option Nat) (bodyLen : Nat) (resp : Resp σ) (b : Nat) (m : Mem) : Prop where
  parser : ParserOk strict P
  hasSend : T.send = some send
  sendOk : SendOk send
  hasRecv : T.recv = some recv
  recvOk : RecvOk recv
  reqBuf : rh.pBuffer = some rb
  reqRoom : rh.bufferLen ≤ (m rb).length
  reqLen : 16 ≤ rh.headersLen
  reqLe : rh.headersLen ≤ rh.bufferLen
  reqSize : rh.bufferLen + 30 < 2 ^ cfg.sizeBits
  buf : resp.pBuffer = some b
  pos : 0 < resp.bufferLen
  room : resp.bufferLen ≤ (m b).length
  size : resp.bufferLen < 2 ^ cfg.sizeBits
  callback : resp.pHeaderParsingCallback ≠ some .null
  bodyNone : body = none → bodyLen = 0
  bodyRoom : ∀ bb, body = some bb → bodyLen ≤ (m bb).length ∧ bb ≠ rb
  bodyMax : bodyLen ≤ 2147483647

/-- What the request puts on the wire. -/
def wireRequest (m : Mem) (rh : ReqHeaders) (body : Option Nat) (bodyLen : Nat) (flags : UInt32) : Bytes :=
  wireHeaders (headerBlock m rh) bodyLen flags.toNat ++ bodyOf m body bodyLen

/-- The response object as HTTPClient_Send uses it: without a clock function, the zero clock. -/
def withClock (resp : Resp σ) : Resp σ := { resp with getTime := match resp.getTime with | .null => .zero | t => t }

end CoreHttp.Spec

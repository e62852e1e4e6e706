import Verif.Spec.SendRecv
import Verif.Spec.RequestHistory

/-! # Vocabulary for the whole use of the library: building a request, sending it, receiving the response -/

namespace CoreHttp.Spec
open CoreHttp
variable {σ : Type}

/-- The header HTTPClient_Send adds by itself. -/
def autoLength (bodyLen flags : Nat) : List (Bytes × Bytes) :=
  if addsContentLength bodyLen flags then [(ascii "Content-Length", decimal bodyLen)] else []

/-- What the caller must provide before building a request: as CallPre, but nothing about what the request buffer holds. -/
structure Setup (strict : Bool) (P : Parser) (cfg : Cfg) (T : Transport σ) (send : σ → Bytes → Int × σ) (recv : σ → Nat → Int × Bytes × σ)
    (h : ReqHeaders) (rb : Nat) (body : Option Nat) (bodyLen : Nat) (resp : Resp σ) (b : Nat) (m : Mem) : Prop where
  parser : ParserOk strict P
  hasSend : T.send = some send
  sendOk : SendOk send
  hasRecv : T.recv = some recv
  recvOk : RecvOk recv
  agent : cfg.userAgent ≠ []
  reqBuf : h.pBuffer = some rb
  reqRoom : h.bufferLen ≤ (m rb).length
  reqSize : h.bufferLen + 30 < 2 ^ cfg.sizeBits
  buf : resp.pBuffer = some b
  pos : 0 < resp.bufferLen
  room : resp.bufferLen ≤ (m b).length
  size : resp.bufferLen < 2 ^ cfg.sizeBits
  callback : resp.pHeaderParsingCallback ≠ some .null
  bodyNone : body = none → bodyLen = 0
  bodyRoom : ∀ bb, body = some bb → bodyLen ≤ (m bb).length ∧ bb ≠ rb
  bodyMax : bodyLen ≤ 2147483647

end CoreHttp.Spec

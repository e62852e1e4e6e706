import Verif.Spec.Steps

/-!
# Asking before sending the body (`Expect: 100-continue`, RFC 9110, 10.1.1)

The program of an application that sends the headers of a request, waits for the server's consent (status 100), and only then sends the body. It is not
part of the library.
-/

namespace CoreHttp.Spec
open CoreHttp
variable {σ : Type}

/-- Send the headers (declaring a body of `n` bytes), receive a response; if it is 100 (Continue), send the body in pieces, and receive the response proper.
Stop at the first call that fails. Returns the status and the response object of the last call. -/
def expectContinue (P : Parser) (cfg : Cfg) (fuel : Nat) (T : Transport σ) (rh : ReqHeaders) (n : Nat) (flags : UInt32) (pieces : List Piece)
    (resp : Resp σ) : M PLog σ (Status × Resp σ) := do
  let (st, orh) ← HTTPClient_SendHttpHeaders cfg fuel (some T) resp.getTime (some rh) n flags
  if st = .success then do
    let (st, resp1) ← HTTPClient_ReceiveAndParseHttpResponse P cfg fuel (some T) (some resp) orh
    if st = .success ∧ resp1.statusCode = 100 then do
      let st ← sendPieces cfg fuel T resp1.getTime pieces
      if st = .success then HTTPClient_ReceiveAndParseHttpResponse P cfg fuel (some T) (some resp1) orh
      else pure (st, resp1)
    else pure (st, resp1)
  else pure (st, resp)

end CoreHttp.Spec

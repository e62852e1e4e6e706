import Verif.Spec.SendRecv
import Verif.Spec.Wire

/-!
# Passing over interim responses (C110)

The program of an application that calls HTTPClient_ReceiveAndParseHttpResponse again as long as it gets an interim response (1xx, other than 101). It is not
part of the library.
-/

namespace CoreHttp.Spec
open CoreHttp
variable {σ : Type}

/-- An interim status code: 1xx, but not 101 (Switching Protocols), after which HTTP is over. -/
def isInterim (code : Nat) : Prop := 100 ≤ code ∧ code < 200 ∧ code ≠ 101

instance (code : Nat) : Decidable (isInterim code) := by unfold isInterim; infer_instance

/-- Receive again while the response is an interim one, at most `k` times. -/
def awaitFinal (P : Parser) (cfg : Cfg) (fuel : Nat) (T : Transport σ) (rh : ReqHeaders) : Nat → Status × Resp σ → M PLog σ (Status × Resp σ)
  | 0, x => pure x
  | k + 1, (st, resp) =>
    if st = .success ∧ isInterim resp.statusCode then do
      let x ← HTTPClient_ReceiveAndParseHttpResponse P cfg fuel (some T) (some resp) (some rh)
      awaitFinal P cfg fuel T rh k x
    else pure (st, resp)

/-- HTTPClient_Send, and then receive again while the response is an interim one. -/
def sendAndAwait (P : Parser) (cfg : Cfg) (fuel : Nat) (T : Transport σ) (rh : ReqHeaders) (body : Option Nat) (n : Nat) (resp : Resp σ) (flags : UInt32)
    (k : Nat) : M PLog σ (Status × Resp σ) := do
  let (st, orh, oresp) ← HTTPClient_Send P cfg fuel (some T) (some rh) body n (some resp) flags
  match orh, oresp with
  | some rh', some resp' => awaitFinal P cfg fuel T rh' k (st, resp')
  | _, _ => pure (st, resp)

end CoreHttp.Spec

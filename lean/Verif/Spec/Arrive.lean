import Verif.Spec.Upload
import Verif.Spec.Recover

/-! # An upload that goes on until it is complete (C117) -/

namespace CoreHttp.Spec.Upload
open CoreHttp Spec
variable {σ : Type}

/-- The attempt is made on a connection on which nothing fails, to a server that answers with a well-formed response that the buffer has room for; and when the message it gets
there is number `i` of the messages `hist` that it processes, then the status is 204 or 409, and the response states the number of bytes that are stored when it has processed it. -/
def Try.Prompt (a : Try σ) (path : Bytes) (hist : List Message) (i : Nat) (got rest : σ → Bytes) (resp : Resp σ) : Prop :=
  0 < a.size ∧ got a.start = [] ∧ ∃ serve, Server serve got rest a.send a.recv resp ∧
    ∀ q m, readMessage q = some (m, []) → m.line = patchLine path →
      ∃ r : Response, r.Ok false ∧ serve q = r.bytes ∧ r.bytes.length ≤ resp.bufferLen ∧ (hist[i]? = some m →
        (r.code = 204 ∨ r.code = 409) ∧ ∃ v, FirstValue (ascii "Upload-Offset") r v ∧ readDecimal v = some (storedAfter path (hist.take (i + 1))).length)

/-- How many of the attempts are on a reliable connection (there, `some i`) and come immediately after another one on a reliable connection. -/
def steadyFrom : Bool → List (Option Nat) → Nat
  | _, [] => 0
  | before, p :: l => (if before = true ∧ p.isSome = true then 1 else 0) + steadyFrom p.isSome l

/-- What makes HTTPClient_Send return (C61) in every attempt, as CallsReturn, for requests with a body. -/
def TriesReturn (cfg : Cfg) (fuel : Nat) (h : ReqHeaders) (resp : Resp σ) (as : List (Try σ)) : Prop :=
  (∃ (f : σ → UInt32 × σ) (now : σ → Nat), resp.getTime = .user f ∧ ClockOk now f ∧
    (∀ a ∈ as, SendTakesTime now f a.send (4294967296 - cfg.sendTimeoutMs.toNat) ∧ RecvTakesTime now f a.recv (4294967296 - cfg.recvTimeoutMs.toNat) ∧
      a.size * (cfg.sendTimeoutMs.toNat + 1) + cfg.sendTimeoutMs.toNat + 1 ≤ fuel) ∧
    h.bufferLen * (cfg.sendTimeoutMs.toNat + 1) + cfg.sendTimeoutMs.toNat + 1 ≤ fuel ∧
    resp.bufferLen * (cfg.recvTimeoutMs.toNat + 2) + cfg.recvTimeoutMs.toNat + 2 ≤ fuel) ∨
  ((resp.getTime = .null ∨ resp.getTime = .zero) ∧ h.bufferLen ≤ fuel ∧ resp.bufferLen + 1 ≤ fuel ∧ ∀ a ∈ as, a.size ≤ fuel)

end CoreHttp.Spec.Upload

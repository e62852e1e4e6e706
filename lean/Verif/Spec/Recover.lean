import Verif.Spec.Resume

/-! # A download that goes on until it is complete (C97) -/

namespace CoreHttp.Spec
open CoreHttp
variable {σ : Type}

/-- One attempt: how many bytes to ask for, the transport of the connection made for it, the state of the environment when it has been made, and (for the
statement only, the loop does not look at it) whether this connection is reliable. -/
structure Attempt (σ : Type) where
  size : Nat
  send : σ → Bytes → Int × σ
  recv : σ → Nat → Int × Bytes × σ
  start : σ
  reliable : Bool

/-- The transport interface passed to HTTPClient_Send. -/
def Attempt.transport (a : Attempt σ) : Transport σ := ⟨some a.send, some a.recv⟩

/-- How many bytes are asked for in the reliable attempts. -/
def reliableBytes (as : List (Attempt σ)) : Nat := ((as.filter (·.reliable)).map (·.size)).sum

/-- The application's loop, as `resume` (with the response object cleared before each attempt), but with a connection of its own for each attempt. -/
def resumeOver (P : Parser) (cfg : Cfg) (fuel : Nat) (path host : Bytes) (reqFlags sendFlags : UInt32) (total : Nat) :
    List (Attempt σ) → Bytes → ReqHeaders → Resp σ → Mem → List (Ev PLog) → Run Bytes
  | [], acc, _, _, _, _ => .ok acc
  | a :: as, acc, h, resp, m, l =>
    if acc.length < total then
      match runBuildOps cfg m h
        [.init (some ⟨some (ascii "GET"), some path, some host, reqFlags⟩), .addRange acc.length (min (acc.length + a.size) total - 1 : Nat)] with
      | .ok ([.success, .success], rh, m1) =>
        match HTTPClient_Send P cfg fuel (some a.transport) (some rh) none 0 (some (cleared resp)) sendFlags ⟨a.start, m1, l⟩ with
        | (.ok (_, some rh', some resp'), w') =>
          resumeOver P cfg fuel path host reqFlags sendFlags total as
            (if resp'.statusCode = 206 then acc ++ bodyBytes w'.mem resp' else acc) rh' resp' w'.mem w'.log
        | (.ok _, _) => .ok acc
        | (.fault f, _) => .fault f
        | (.more, _) => .more
      | .ok _ => .ok acc
      | .fault f => .fault f
      | .more => .more
    else .ok acc

/-- What makes HTTPClient_Send return (C61) in every attempt: a clock function that tells the time, and connections on which no fruitless call takes no time at all or nearly
the whole range of the clock; or no clock function. The loops are followed for `fuel` transport calls, which is enough for the buffers and timeouts. -/
def CallsReturn (cfg : Cfg) (fuel : Nat) (h : ReqHeaders) (resp : Resp σ) (as : List (Attempt σ)) : Prop :=
  (∃ (f : σ → UInt32 × σ) (now : σ → Nat), resp.getTime = .user f ∧ ClockOk now f ∧
    (∀ a ∈ as, SendTakesTime now f a.send (4294967296 - cfg.sendTimeoutMs.toNat) ∧ RecvTakesTime now f a.recv (4294967296 - cfg.recvTimeoutMs.toNat)) ∧
    h.bufferLen * (cfg.sendTimeoutMs.toNat + 1) + cfg.sendTimeoutMs.toNat + 1 ≤ fuel ∧
    resp.bufferLen * (cfg.recvTimeoutMs.toNat + 2) + cfg.recvTimeoutMs.toNat + 2 ≤ fuel) ∨
  ((resp.getTime = .null ∨ resp.getTime = .zero) ∧ h.bufferLen ≤ fuel ∧ resp.bufferLen + 1 ≤ fuel)

end CoreHttp.Spec

import Verif.Spec.Session
import Verif.Spec.Wire

/-! # One connection for several requests: the server and network, and the rule for the application (C108) -/

namespace CoreHttp.Spec
open CoreHttp
variable {σ : Type}

/-- What a server that is given the requests `qs`, one after the other over one connection, is to deliver altogether: its answers, in order. The answer to a
request may depend on the requests before it (`done`). -/
def answersTo (answer : List Bytes → Bytes → Response) (done : List Bytes) : List Bytes → Bytes
  | [] => []
  | q :: qs => (answer done q).bytes ++ answersTo answer (done ++ [q]) qs

/-- A server behind an unreliable network, over a connection that can be used for several requests. `got s` is what the server has got on the present
connection, `sent s` what has been delivered on it so far.
* A send call may fail, accept nothing, or accept any part of what it is offered; the server gets what was accepted.
* A receive call may fail, deliver nothing, or deliver any number of bytes. But the server answers requests, in order: when what it has got are the requests
  `qs` (of the kind `Q` that it understands), and not more than the answers to these has been delivered, then not more is delivered.
* Clock and header callback do not interfere. -/
structure AnsweringServer (answer : List Bytes → Bytes → Response) (Q : Bytes → Prop) (got sent : σ → Bytes) (send : σ → Bytes → Int × σ)
    (recv : σ → Nat → Int × Bytes × σ) (resp : Resp σ) : Prop where
  takes : ∀ s d, got (send s d).2 = got s ++ d.take (send s d).1.toNat ∧ sent (send s d).2 = sent s
  delivers : ∀ s len, (recv s len).1.toNat ≤ (recv s len).2.1.length ∧ got (recv s len).2.2 = got s ∧
    sent (recv s len).2.2 = sent s ++ (recv s len).2.1.take (recv s len).1.toNat
  answers : ∀ s len qs, (∀ q ∈ qs, Q q) → got s = qs.flatten → sent s <+: answersTo answer [] qs →
    sent (recv s len).2.2 <+: answersTo answer [] qs
  clock : ∀ f, resp.getTime = .user f → ∀ s, got (f s).2 = got s ∧ sent (f s).2 = sent s
  header : ∀ c, resp.pHeaderParsingCallback = some (.user c) → ∀ s a f b v code, got (c s a f b v code) = got s ∧ sent (c s a f b v code) = sent s

/-- What the call was to send: the header block and the body. -/
def Exchange.wire (x : Exchange σ) : Bytes := wireRequest x.before.mem x.req x.body x.bodyLen x.flags

/-- The calls after `p`, over the same connection, made only after HTTPSuccess: nothing is sent or received between two calls. -/
def Continues (got sent : σ → Bytes) (p : Exchange σ) : List (Exchange σ) → Prop
  | [] => True
  | x :: xs => p.status = .success ∧ got x.before.env = got p.after.env ∧ sent x.before.env = sent p.after.env ∧ Continues got sent x xs

/-- **The rule**: the first of the calls is made on a new connection; for each further call, the connection is used again only if the call before returned
HTTPSuccess. (The last one may return anything.) -/
def SafelyReused (got sent : σ → Bytes) : List (Exchange σ) → Prop
  | [] => True
  | x :: xs => got x.before.env = [] ∧ sent x.before.env = [] ∧ Continues got sent x xs

end CoreHttp.Spec

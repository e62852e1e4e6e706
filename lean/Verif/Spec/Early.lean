import Verif.Spec.Peer

/-! # A server that answers before it has got the whole request (C109) -/

namespace CoreHttp.Spec
open CoreHttp
variable {σ : Type}

/-- A server that has made up its mind: what it has to deliver, `rest s`, does not depend on what it is sent. A send call may do anything: accept everything, a
part or nothing of what it is offered, or fail. A receive call delivers the next bytes of what there is to deliver: at least one, if there are any. Clock and
header callback do not interfere. -/
structure EarlyServer (rest : σ → Bytes) (send : σ → Bytes → Int × σ) (recv : σ → Nat → Int × Bytes × σ) (resp : Resp σ) : Prop where
  ignores : ∀ s d, rest (send s d).2 = rest s
  delivers : ∀ s len, (recv s len).1 = ((recv s len).2.1.length : Int) ∧ (recv s len).2.1 ++ rest (recv s len).2.2 = rest s
  progress : ∀ s len, 0 < len → rest s ≠ [] → (recv s len).2.1 ≠ []
  clock : ∀ f, resp.getTime = .user f → ∀ s, rest (f s).2 = rest s
  header : ∀ c, resp.pHeaderParsingCallback = some (.user c) → ∀ s a f b v code, rest (c s a f b v code) = rest s

end CoreHttp.Spec

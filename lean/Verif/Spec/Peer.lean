import Verif.Spec.Wire
import Verif.Spec.SendRecv

/-! # A cooperative peer, for the round trip property C58 -/

namespace CoreHttp.Spec
open CoreHttp
variable {σ : Type}

/-- The environment contains a peer that takes a request and answers it. `got s` is what the peer has received when the environment is in state `s`,
`rest s` what it has still to deliver.
* It accepts at least one byte of everything it is offered, and remembers what it accepted.
* When it has got the whole request, it has the whole answer to deliver.
* A receive call delivers the next bytes of what it has to deliver: at least one, if there are any.
* Clock and header callback do not interfere with it. -/
structure Peer (request answer : Bytes) (got rest : σ → Bytes) (send : σ → Bytes → Int × σ) (recv : σ → Nat → Int × Bytes × σ) (resp : Resp σ) :
    Prop where
  accepts : ∀ s d, d ≠ [] → 0 < (send s d).1
  takes : ∀ s d, got (send s d).2 = got s ++ d.take (send s d).1.toNat
  answers : ∀ s d, got (send s d).2 = request → rest (send s d).2 = answer
  delivers : ∀ s len, (recv s len).1 = ((recv s len).2.1.length : Int) ∧ (recv s len).2.1 ++ rest (recv s len).2.2 = rest s
  progress : ∀ s len, 0 < len → rest s ≠ [] → (recv s len).2.1 ≠ []
  keeps : ∀ s len, got (recv s len).2.2 = got s
  clock : ∀ f, resp.getTime = .user f → ∀ s, got (f s).2 = got s ∧ rest (f s).2 = rest s
  header : ∀ c, resp.pHeaderParsingCallback = some (.user c) → ∀ s a f b v code, got (c s a f b v code) = got s ∧ rest (c s a f b v code) = rest s

/-- The receiving side of a peer alone: what is still to be delivered, `rest s`, is delivered in order, at least one byte at a time. -/
structure Giver (got rest : σ → Bytes) (recv : σ → Nat → Int × Bytes × σ) (resp : Resp σ) : Prop where
  delivers : ∀ s len, (recv s len).1 = ((recv s len).2.1.length : Int) ∧ (recv s len).2.1 ++ rest (recv s len).2.2 = rest s
  progress : ∀ s len, 0 < len → rest s ≠ [] → (recv s len).2.1 ≠ []
  keeps : ∀ s len, got (recv s len).2.2 = got s
  clock : ∀ f, resp.getTime = .user f → ∀ s, got (f s).2 = got s ∧ rest (f s).2 = rest s
  header : ∀ c, resp.pHeaderParsingCallback = some (.user c) → ∀ s a f b v code, got (c s a f b v code) = got s ∧ rest (c s a f b v code) = rest s

end CoreHttp.Spec

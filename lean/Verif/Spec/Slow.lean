import Verif.Spec.Peer

/-! # A slow peer, for C103: now and then it accepts or delivers nothing, but it keeps within the retry timeouts -/

namespace CoreHttp.Spec
open CoreHttp
variable {σ : Type}

/-- As `Peer`, but send and receive calls may also accept or deliver nothing. `now s` is the time in ms; by the time `sendDue s` the next bytes offered will be
accepted, by the time `recvDue s` the next bytes of the answer will be delivered.
* A send call that accepts nothing is over – and the clock read – before the due time, and does not put it off; likewise a receive call that delivers nothing
  although there is something to deliver.
* When something was accepted or delivered, the next bytes are due within the retry timeout from then. When the last byte of the request was accepted, the answer
  is due within the retry timeout for receiving.
* Time does not run backwards, and clock and header callback interfere with nothing. -/
structure SlowPeer (request answer : Bytes) (got rest : σ → Bytes) (now sendDue recvDue : σ → Nat) (sendMs recvMs : Nat) (f : σ → UInt32 × σ)
    (send : σ → Bytes → Int × σ) (recv : σ → Nat → Int × Bytes × σ) (resp : Resp σ) : Prop where
  noError : ∀ s d, 0 ≤ (send s d).1
  takes : ∀ s d, got (send s d).2 = got s ++ d.take (send s d).1.toNat
  answers : ∀ s d, 0 < (send s d).1 → got (send s d).2 = request → rest (send s d).2 = answer ∧ recvDue (send s d).2 ≤ now (send s d).2 + recvMs
  sendTime : ∀ s d, now s ≤ now (send s d).2
  sendWaits : ∀ s d, d ≠ [] → (send s d).1 = 0 → now (f (send s d).2).2 < sendDue s ∧ sendDue (send s d).2 = sendDue s ∧
    recvDue (send s d).2 = recvDue s ∧ rest (send s d).2 = rest s
  sendGoes : ∀ s d, 0 < (send s d).1 → sendDue (send s d).2 ≤ now (send s d).2 + sendMs
  delivers : ∀ s len, (recv s len).1 = ((recv s len).2.1.length : Int) ∧ (recv s len).2.1 ++ rest (recv s len).2.2 = rest s
  keeps : ∀ s len, got (recv s len).2.2 = got s
  recvTime : ∀ s len, now s ≤ now (recv s len).2.2
  recvWaits : ∀ s len, 0 < len → rest s ≠ [] → (recv s len).2.1 = [] →
    now (f (recv s len).2.2).2 < recvDue s ∧ recvDue (recv s len).2.2 = recvDue s
  recvGoes : ∀ s len, (recv s len).2.1 ≠ [] → recvDue (recv s len).2.2 ≤ now (recv s len).2.2 + recvMs
  clock : ∀ s, got (f s).2 = got s ∧ rest (f s).2 = rest s ∧ sendDue (f s).2 = sendDue s ∧ recvDue (f s).2 = recvDue s
  header : ∀ c, resp.pHeaderParsingCallback = some (.user c) → ∀ s a x b v code, got (c s a x b v code) = got s ∧ rest (c s a x b v code) = rest s ∧
    sendDue (c s a x b v code) = sendDue s ∧ recvDue (c s a x b v code) = recvDue s ∧ now s ≤ now (c s a x b v code)

end CoreHttp.Spec

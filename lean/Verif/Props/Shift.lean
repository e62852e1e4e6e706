import Verif.Lemmas.Shift
import Verif.Props.Slow

/-! # C104: it does not matter what time it is -/

namespace CoreHttp.Props
open CoreHttp Spec
variable {σ : Type}

/-- **C104.** Only differences of clock readings matter. Let the application's clock be `k` ms ahead, for any `k` (modulo 2^32), and all else be the same – any
objects, parameters, transport, parser, buffers, and a run of any length: the transport and callbacks see the same calls with the same data in the same order, the
memory and the environment become the same, and the call returns the same (or trips the same assertion, or is still running likewise). -/
theorem C104_time_of_day (P : Parser) (cfg : Cfg) (fuel : Nat) (T : Option (Transport σ)) (rh : Option ReqHeaders) (body : Option Nat) (n : Nat)
    (resp : Resp σ) (flags : UInt32) (k : UInt32) {f : σ → UInt32 × σ} (hc : resp.getTime = .user f) (w : World PLog σ) :
    ∃ res w' evs, HTTPClient_Send P cfg fuel T rh body n (some resp) flags w = (res, w') ∧ w'.log = w.log ++ evs ∧
      HTTPClient_Send P cfg fuel T rh body n (some (aheadResp k resp)) flags w =
        (aheadResult k res, ⟨w'.env, w'.mem, w.log ++ evs.map (aheadEv k)⟩) := by
  obtain ⟨h1, h2, _⟩ := Shift.send_acts (k := k) (l := w.log) P cfg fuel T rh body n flags hc w w ⟨rfl, rfl, [], by simp, by simp⟩
  rcases e : HTTPClient_Send P cfg fuel T rh body n (some resp) flags w with ⟨res, w'⟩
  rcases e' : HTTPClient_Send P cfg fuel T rh body n (some (aheadResp k resp)) flags w with ⟨res2, w2⟩
  rw [e, e'] at h1 h2
  obtain ⟨g1, g2, evs, g3, g4⟩ := h2
  refine ⟨res, w', evs, rfl, g3, ?_⟩
  obtain ⟨a, b, c⟩ := w2
  dsimp only at h1 g1 g2 g4
  rw [h1, g1, g2, g4]
  rcases res with ⟨st, r1, r2⟩ | _ | _ <;> rfl

/-- **C104, what the application sees**: the same bytes on the wire, the same data received, the same headers reported, and the same result. -/
theorem C104_same_traffic (P : Parser) (cfg : Cfg) (fuel : Nat) (T : Option (Transport σ)) (rh : Option ReqHeaders) (body : Option Nat) (n : Nat)
    (resp : Resp σ) (flags : UInt32) (k : UInt32) {f : σ → UInt32 × σ} (hc : resp.getTime = .user f) (w : World PLog σ)
    {st : Status} {rh' : Option ReqHeaders} {resp' : Option (Resp σ)} {w' : World PLog σ} {evs : List (Ev PLog)}
    (e : HTTPClient_Send P cfg fuel T rh body n (some resp) flags w = (.ok (st, rh', resp'), w')) (hl : w'.log = w.log ++ evs) :
    ∃ w2 evs2, HTTPClient_Send P cfg fuel T rh body n (some (aheadResp k resp)) flags w = (.ok (st, rh', resp'.map (aheadResp k)), w2) ∧
      w2.log = w.log ++ evs2 ∧ w2.env = w'.env ∧ w2.mem = w'.mem ∧
      sends evs2 = sends evs ∧ recvs evs2 = recvs evs ∧ reported evs2 = reported evs := by
  obtain ⟨res, w1, evs1, e1, l1, e2⟩ := C104_time_of_day P cfg fuel T rh body n resp flags k hc w
  rw [e] at e1; cases e1
  obtain rfl : evs = evs1 := List.append_cancel_left (hl.symm.trans l1)
  refine ⟨_, _, e2, rfl, rfl, rfl, ?_, ?_, ?_⟩
  · clear e2 l1 hl e
    induction evs with
    | nil => rfl
    | cons x xs ih => cases x <;> simp only [List.map_cons, aheadEv, sends] <;> first | exact ih | (simp only [ih])
  · clear e2 l1 hl e
    induction evs with
    | nil => rfl
    | cons x xs ih => cases x <;> simp only [List.map_cons, aheadEv, recvs] <;> first | exact ih | (simp only [ih])
  · clear e2 l1 hl e
    induction evs with
    | nil => rfl
    | cons x xs ih => cases x <;> simp only [List.map_cons, aheadEv, reported] <;> first | exact ih | (simp only [ih])

/-- A concrete case: the exchange with the slow peer of C103 that begins at time 0, and the same exchange with a clock that is about to wrap around (it reads
2^32 − 6 at first): both return HTTPSuccess, and the same traffic has gone over the wire. -/
example : ∃ rh' resp' w1 w2, HTTPClient_Send Ref.httpParser exCfg 3000 (some (slowT (wireRequest xMem xReq (some 2) 5 0) exResponse.bytes)) (some xReq) (some 2) 5
      (some (peerResp 1)) 0 ⟨(0, [], []), xMem, []⟩ = (.ok (.success, some rh', some resp'), w1) ∧
    HTTPClient_Send Ref.httpParser exCfg 3000 (some (slowT (wireRequest xMem xReq (some 2) 5 0) exResponse.bytes)) (some xReq) (some 2) 5
      (some (aheadResp 4294967290 (peerResp 1))) 0 ⟨(0, [], []), xMem, []⟩ = (.ok (.success, some rh', some (aheadResp 4294967290 resp')), w2) ∧
    sends w2.log = sends w1.log ∧ recvs w2.log = recvs w1.log ∧ received w1.log = exResponse.bytes ∧ w2.mem = w1.mem := by
  obtain ⟨rh', resp', w', evs, e, hl, _, h4, _⟩ := slow_exchange 1 (.inr rfl) 0
  obtain ⟨w2, evs2, e2, l2, _, g2, g3, g4, _⟩ := C104_same_traffic (evs := evs) Ref.httpParser exCfg 3000 _ _ _ _ (peerResp 1) 0 4294967290 (f := peerClock) rfl _ e
    (by simpa using hl)
  simp only [List.nil_append] at l2
  exact ⟨rh', resp', w', w2, e, e2, by rw [l2, hl, g3], by rw [l2, hl, g4], by rw [hl, h4], g2⟩

end CoreHttp.Props

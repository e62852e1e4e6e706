import Verif.Spec.Trace
import Verif.Model.Receive

/-! # Specification vocabulary: how long a call takes

`now` reads the true time, in milliseconds, off the state of the environment. Time passes only in the functions the application supplies:
the computations of the library themselves are taken to be instantaneous.
-/

namespace CoreHttp.Spec
open CoreHttp
variable {π σ : Type}

/-- Each call of the transport and of the clock takes at most `D` ms, each call of the header callback at most `E` ms, time does not run
backwards, and the clock shows the true time modulo 2^32. -/
structure Timed (now : σ → Nat) (D E : Nat) (send : σ → Bytes → Int × σ) (recv : σ → Nat → Int × Bytes × σ) (clock : TimeFn σ)
    (cb : Option (HeaderCb σ)) : Prop where
  send : ∀ s d, now s ≤ now (send s d).2 ∧ now (send s d).2 ≤ now s + D
  recv : ∀ s n, now s ≤ now (recv s n).2.2 ∧ now (recv s n).2.2 ≤ now s + D
  clockTime : ∀ f, clock = .user f → ∀ s, now s ≤ now (f s).2 ∧ now (f s).2 ≤ now s + D
  reading : ∀ f, clock = .user f → ∀ s, (f s).1 = UInt32.ofNat (now (f s).2)
  header : ∀ c, cb = some (.user c) → ∀ s a x b v code, now s ≤ now (c s a x b v code) ∧ now (c s a x b v code) ≤ now s + E

/-- How many transport sends of a trace accepted something. -/
def goodSends : List (Ev π) → Nat
  | [] => 0
  | .send _ ret :: es => (if 0 < ret then 1 else 0) + goodSends es
  | _ :: es => goodSends es

/-- How many transport receives of a trace delivered something. -/
def goodRecvs : List (Ev π) → Nat
  | [] => 0
  | .recv _ _ ret _ :: es => (if 0 < ret then 1 else 0) + goodRecvs es
  | _ :: es => goodRecvs es

/-- How often the header callback was called. -/
def headerCalls : List (Ev π) → Nat
  | [] => 0
  | .header _ _ _ _ _ :: es => 1 + headerCalls es
  | _ :: es => headerCalls es

end CoreHttp.Spec

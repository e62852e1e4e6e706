import Verif.Model.World

/-! # Specification vocabulary: reading a trace of observable events -/

namespace CoreHttp.Spec
open CoreHttp
variable {π σ : Type}

/-- The bytes the transport accepted during a trace: of each send, the first `ret` bytes offered. -/
def accepted : List (Ev π) → Bytes
  | [] => []
  | .send data ret :: es => data.take ret.toNat ++ accepted es
  | _ :: es => accepted es

/-- The results of the transport send calls in a trace, in order. -/
def sends : List (Ev π) → List (Bytes × Int)
  | [] => []
  | .send data ret :: es => (data, ret) :: sends es
  | _ :: es => sends es

/-- The transport receive calls of a trace: offset, length requested, result, data delivered. -/
def recvs : List (Ev π) → List (Nat × Nat × Int × Bytes)
  | [] => []
  | .recv off len ret data :: es => (off, len, ret, data) :: recvs es
  | _ :: es => recvs es

/-- The data delivered by the transport during a trace. -/
def received : List (Ev π) → Bytes
  | [] => []
  | .recv _ _ _ data :: es => data ++ received es
  | _ :: es => received es

/-- The application's send function honours its contract: it never claims to have sent more than it was offered. -/
def SendOk (send : σ → Bytes → Int × σ) : Prop := ∀ s d, (send s d).1 ≤ (d.length : Int)

end CoreHttp.Spec

namespace CoreHttp.Spec
open CoreHttp
variable {π σ : Type}

/-- Clock value at the last moment of progress of a sending trace: the reading taken after the last send that accepted something, `t0`
before any. -/
def lastProgress : UInt32 → List (Ev π) → UInt32
  | t0, [] => t0
  | t0, .send _ ret :: .time t :: es => if 0 < ret then lastProgress t es else lastProgress t0 es
  | t0, _ :: es => lastProgress t0 es

end CoreHttp.Spec

namespace CoreHttp.Spec
open CoreHttp
variable {σ : Type}

/-- The 32-bit clock function `f` shows a true, never decreasing millisecond clock `now` (modulo 2^32). -/
structure ClockOk (now : σ → Nat) (f : σ → UInt32 × σ) : Prop where
  reading : ∀ s, (f s).1 = UInt32.ofNat (now (f s).2)
  mono : ∀ s, now s ≤ now (f s).2

/-- A send that accepts nothing takes at least 1 ms and, including the clock reading that follows, less than `B` ms. -/
def SendTakesTime (now : σ → Nat) (f : σ → UInt32 × σ) (send : σ → Bytes → Int × σ) (B : Nat) : Prop :=
  ∀ s d, (send s d).1 = 0 → now s < now (send s d).2 ∧ now (f (send s d).2).2 < now s + B

end CoreHttp.Spec

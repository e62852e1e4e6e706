import Verif.Spec.SendRecv

/-! # Specification vocabulary: two clocks that differ by a constant, for C104 -/

namespace CoreHttp.Spec
open CoreHttp
variable {σ : Type}

/-- The clock that is always `k` ms ahead of `c` (modulo 2^32). A missing clock stays missing, and so does the library's own substitute for it. -/
def aheadClock (k : UInt32) : TimeFn σ → TimeFn σ
  | .null => .null
  | .zero => .zero
  | .user f => .user fun s => ((f s).1 + k, (f s).2)

/-- The same response object with the clock `k` ms ahead. -/
def aheadResp (k : UInt32) (r : Resp σ) : Resp σ := { r with getTime := aheadClock k r.getTime }

/-- An event as it is when the clock is `k` ms ahead: clock readings are `k` more, all else is the same. -/
def aheadEv (k : UInt32) : Ev PLog → Ev PLog
  | .time t => .time (t + k)
  | e => e

/-- What HTTPClient_Send returns, with the clock in the response object `k` ms ahead. -/
def aheadResult (k : UInt32) : Run (Status × Option ReqHeaders × Option (Resp σ)) → Run (Status × Option ReqHeaders × Option (Resp σ))
  | .ok (st, rh, resp) => .ok (st, rh, resp.map (aheadResp k))
  | .fault e => .fault e
  | .more => .more

end CoreHttp.Spec

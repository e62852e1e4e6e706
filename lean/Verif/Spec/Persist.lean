import Verif.Spec.Peer
import Verif.Spec.Receive

/-! # Specification vocabulary: what a call reports, for C105 -/

namespace CoreHttp.Spec
open CoreHttp
variable {σ : Type}

/-- All that the library reports about a response: the fields of the response object it sets, the headers given to the callback, and the body. -/
structure Report where
  statusCode : Nat
  pHeaders : Option Nat
  headersLen : Nat
  pBody : Option Nat
  bodyLen : Nat
  contentLength : Nat
  headerCount : Nat
  areHeadersComplete : Nat
  respFlags : UInt32
  headers : List (Bytes × Bytes × Nat)
  body : Bytes
deriving DecidableEq

/-- The report in a response object `r`, after the events `evs`, with memory `m`. -/
def report (evs : List (Ev PLog)) (m : Mem) (r : Resp σ) : Report :=
  ⟨r.statusCode, r.pHeaders, r.headersLen, r.pBody, r.bodyLen, r.contentLength, r.headerCount, r.areHeadersComplete, r.respFlags, reported evs, bodyBytes m r⟩

end CoreHttp.Spec

import Verif.Spec.Wire
import Verif.Spec.Receive

/-! # What pHeaders and headersLen denote -/

namespace CoreHttp.Spec
open CoreHttp
variable {σ : Type}

/-- The bytes pHeaders and headersLen delimit. -/
def headerBytes (m : Mem) (r : Resp σ) : Bytes :=
  match r.pBuffer, r.pHeaders with
  | some b, some p => slice (m b) p r.headersLen
  | _, _ => []

/-- pHeaders and headersLen, for the response `r`: the first byte after the status line, and the header fields, one per line, followed by the first `k` bytes
of the CR LF CR LF that ends the header section. Usually `k` is 0; otherwise the data that completed the header section and was given to the parser at once
began after these `k` bytes. -/
structure HeadersAt (r : Response) (evs : List (Ev PLog)) (m : Mem) (resp' : Resp σ) : Prop where
  noFields : r.fields = [] → resp'.pHeaders = none ∧ resp'.headersLen = 0
  fields : r.fields ≠ [] → resp'.pHeaders = some r.statusLine.length ∧
    ∃ k, k ≤ 3 ∧ headerBytes m resp' = headerText r.fields ++ (crlf ++ crlf).take k ∧ resp'.headersLen = (headerText r.fields).length + k ∧
      (0 < k → ∃ pre d post, evs = pre ++ .parserCall (r.statusLine.length + (headerText r.fields).length + k) d :: post)

end CoreHttp.Spec

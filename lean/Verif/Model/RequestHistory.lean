import Verif.Model.Request

/-! # Histories of request-building calls on one request object -/

namespace CoreHttp

/-- A call of the request-building API on a given request object. -/
inductive BuildOp where
  /-- HTTPClient_InitializeRequestHeaders, core_http_client.c:1589-1685 -/
  | init (info : Option ReqInfo)
  /-- HTTPClient_AddHeader, core_http_client.c:1689-1745 -/
  | addHeader (field value : Option Bytes)
  /-- HTTPClient_AddRangeHeader, core_http_client.c:1749-1810 -/
  | addRange (rangeStart rangeEnd : Int)
deriving DecidableEq, Repr

/-- Run one call (core_http_client.c:1589-1810). -/
def runBuildOp (cfg : Cfg) (m : Mem) (h : ReqHeaders) : BuildOp → Run (Status × Option ReqHeaders × Mem)
  | .init info => HTTPClient_InitializeRequestHeaders cfg m (some h) info
  | .addHeader f v => HTTPClient_AddHeader cfg m (some h) f v
  | .addRange s e => HTTPClient_AddRangeHeader cfg m (some h) s e

/-- Run a sequence of calls (core_http_client.c:1589-1810), collecting the statuses in call order. -/
def runBuildOps (cfg : Cfg) : Mem → ReqHeaders → List BuildOp → Run (List Status × ReqHeaders × Mem)
  | m, h, [] => .ok ([], h, m)
  | m, h, op :: ops => do
    let (st, oh, m) ← runBuildOp cfg m h op
    match oh with
    | none => .fault .nullCall
    | some h => do
      let (sts, h, m) ← runBuildOps cfg m h ops
      .ok (st :: sts, h, m)

end CoreHttp

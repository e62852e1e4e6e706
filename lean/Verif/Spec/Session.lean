import Verif.Spec.SendRecv

/-! # Sessions: any number of calls of HTTPClient_Send with the same request and response object -/

namespace CoreHttp.Spec
open CoreHttp
variable {σ : Type}

/-- One returned call of HTTPClient_Send: the body, its length and the send flags given, the objects and the world before and after, the status. -/
structure Exchange (σ : Type) where
  body : Option Nat
  bodyLen : Nat
  flags : UInt32
  fuel : Nat
  req : ReqHeaders
  resp : Resp σ
  before : World PLog σ
  status : Status
  req' : ReqHeaders
  resp' : Resp σ
  after : World PLog σ
  events : List (Ev PLog)

/-- What the application may do between two calls: anything with the contents of its memory, the settings of the response object and (unless `keep`)
the request headers, as long as buffers stay where they are, with the same lengths, the request object stays usable and a callback structure has its function set. With `keep` it leaves
the request object and its buffer alone. Time passes and the peer does what it likes: the environment is arbitrary. -/
structure AppStep (keep : Bool) (rh rh' : ReqHeaders) (resp resp' : Resp σ) (m m' : Mem) : Prop where
  sizes : ∀ i, (m' i).length = (m i).length
  reqBuf : rh'.pBuffer = rh.pBuffer ∧ rh'.bufferLen = rh.bufferLen
  reqLen : 16 ≤ rh'.headersLen ∧ rh'.headersLen ≤ rh'.bufferLen
  respBuf : resp'.pBuffer = resp.pBuffer ∧ resp'.bufferLen = resp.bufferLen
  callback : resp'.pHeaderParsingCallback ≠ some .null
  keeps : keep = true → rh' = rh ∧ ∀ b, rh.pBuffer = some b → m' b = m b

/-- A session: calls of HTTPClient_Send that return, each with the objects as they were left before, and steps of the application in between. -/
inductive Session (P : Parser) (cfg : Cfg) (T : Transport σ) (keep : Bool) : ReqHeaders → Resp σ → World PLog σ → List (Exchange σ) →
    ReqHeaders → Resp σ → World PLog σ → Prop where
  | nil (rh : ReqHeaders) (resp : Resp σ) (w : World PLog σ) : Session P cfg T keep rh resp w [] rh resp w
  | call {rh resp w rh1 resp1 w1 xs rh2 resp2 w2} {body : Option Nat} {n : Nat} {flags : UInt32} {fuel : Nat} {st : Status} {evs : List (Ev PLog)}
      (e : HTTPClient_Send P cfg fuel (some T) (some rh) body n (some resp) flags w = (.ok (st, some rh1, some resp1), w1))
      (hl : w1.log = w.log ++ evs) (next : Session P cfg T keep rh1 resp1 w1 xs rh2 resp2 w2) :
      Session P cfg T keep rh resp w (⟨body, n, flags, fuel, rh, resp, w, st, rh1, resp1, w1, evs⟩ :: xs) rh2 resp2 w2
  | app {rh resp w rh1 resp1 s1 m1 xs rh2 resp2 w2} (step : AppStep keep rh rh1 resp resp1 w.mem m1)
      (next : Session P cfg T keep rh1 resp1 ⟨s1, m1, w.log⟩ xs rh2 resp2 w2) : Session P cfg T keep rh resp w xs rh2 resp2 w2

/-- The header block after a call with this body length and flags, in a buffer of `cap` bytes. -/
def blockAfter (cap : Nat) (block : Bytes) (n flags : Nat) : Bytes :=
  if (wireHeaders block n flags).length ≤ cap then wireHeaders block n flags else block

/-- The header block after the calls `xs`. -/
def blockAfterAll (cap : Nat) (block : Bytes) (xs : List (Exchange σ)) : Bytes :=
  xs.foldl (fun blk x => blockAfter cap blk x.bodyLen x.flags.toNat) block

/-- The lines added by `k` calls with a body of `n` bytes. -/
def lengthLines (n : Nat) : Nat → Bytes
  | 0 => []
  | k + 1 => lengthLines n k ++ headerLine (ascii "Content-Length") (decimal n)

end CoreHttp.Spec

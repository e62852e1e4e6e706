import Verif.Spec.Peer
import Verif.Model.Receive

/-!
# An exchange made in steps

The public functions HTTPClient_SendHttpHeaders, HTTPClient_SendHttpData and HTTPClient_ReceiveAndParseHttpResponse (core_http_client.h:815, 836 and 960)
let a caller send a request whose body it does not have in memory as a whole: it fills a buffer, sends it, fills it again. These are the
programs such callers write; they are not part of the library.
-/

namespace CoreHttp.Spec
open CoreHttp
variable {π σ : Type}

/-- A piece of the body: the block the caller puts it in (at offset 0), and its bytes. -/
abbrev Piece := Nat × Bytes

/-- The caller writes `data` at the beginning of block `b`. -/
def store (m : Mem) (b : Nat) (data : Bytes) : Mem := fun i => if i = b then data ++ (m b).drop data.length else m i

/-- The caller's loop: store a piece, send it, until there are no more or a call fails. -/
def sendPieces (cfg : Cfg) (fuel : Nat) (T : Transport σ) (clock : TimeFn σ) : List Piece → M π σ Status
  | [] => pure .success
  | p :: ps => do
    let w ← M.world
    M.setMem (store w.mem p.1 p.2)
    let st ← HTTPClient_SendHttpData cfg fuel (some T) clock (some p.1) p.2.length
    if st = .success then sendPieces cfg fuel T clock ps else pure st

/-- The whole exchange: headers (declaring a body of `n` bytes), the pieces, the response; stop at the first call that fails. -/
def exchangeInSteps (P : Parser) (cfg : Cfg) (fuel : Nat) (T : Transport σ) (rh : ReqHeaders) (n : Nat) (flags : UInt32) (pieces : List Piece)
    (resp : Resp σ) : M PLog σ (Status × Option ReqHeaders × Option (Resp σ)) := do
  let (st, orh) ← HTTPClient_SendHttpHeaders cfg fuel (some T) resp.getTime (some rh) n flags
  if st = .success then do
    let st ← sendPieces cfg fuel T resp.getTime pieces
    if st = .success then do
      let (st, resp') ← HTTPClient_ReceiveAndParseHttpResponse P cfg fuel (some T) (some resp) orh
      pure (st, orh, some resp')
    else pure (st, orh, some resp)
  else pure (st, orh, some resp)

/-- The three calls with the body in one piece (block `body`, `n` bytes; none for NULL). -/
def threeCalls (P : Parser) (cfg : Cfg) (fuel : Nat) (T : Transport σ) (rh : ReqHeaders) (body : Option Nat) (n : Nat) (flags : UInt32)
    (resp : Resp σ) : M PLog σ (Status × Option ReqHeaders × Option (Resp σ)) := do
  let (st, orh) ← HTTPClient_SendHttpHeaders cfg fuel (some T) resp.getTime (some rh) n flags
  if st = .success then do
    let st ← (match body with
      | none => pure .success
      | some bb => HTTPClient_SendHttpData cfg fuel (some T) resp.getTime (some bb) n)
    if st = .success then do
      let (st, resp') ← HTTPClient_ReceiveAndParseHttpResponse P cfg fuel (some T) (some resp) orh
      pure (st, orh, some resp')
    else pure (st, orh, some resp)
  else pure (st, orh, some resp)

/-- What the pieces amount to. -/
def piecesBytes (ps : List Piece) : Bytes := (ps.map (·.2)).flatten

/-- The pieces fit in the blocks the caller puts them in, none of which holds the request headers. -/
def PiecesOk (m : Mem) (rb : Nat) (ps : List Piece) : Prop := ∀ p ∈ ps, p.1 ≠ rb ∧ p.2.length ≤ (m p.1).length

end CoreHttp.Spec

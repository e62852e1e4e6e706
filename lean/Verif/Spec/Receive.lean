import Verif.Spec.View
import Verif.Spec.Objects

/-! # Vocabulary for stating properties of receiving -/

namespace CoreHttp.Spec
open CoreHttp
variable {σ : Type}

/-- The data of the calls of the parser in a trace. -/
def calls : List (Ev PLog) → List Bytes
  | [] => []
  | .parserCall _ d :: es => d :: calls es
  | _ :: es => calls es

/-- The application's receive function honours its contract: it never claims to have received, nor writes, more than it was asked for. -/
def RecvOk (recv : σ → Nat → Int × Bytes × σ) : Prop :=
  ∀ s len, (recv s len).1 ≤ (len : Int) ∧ (recv s len).2.1.length ≤ len

/-- A receive that delivers nothing takes at least 1 ms and, including the clock reading that follows, less than `B` ms. -/
def RecvTakesTime (now : σ → Nat) (f : σ → UInt32 × σ) (recv : σ → Nat → Int × Bytes × σ) (B : Nat) : Prop :=
  ∀ s len, (recv s len).1 = 0 → now s < now (recv s len).2.2 ∧ now (f (recv s len).2.2).2 < now s + B

/-- Message state after a trace. -/
def msgState (evs : List (Ev PLog)) : PState := (view (obsOf evs)).state

/-- Clock value at the last moment of progress of a receiving trace: the reading taken after the last receive that delivered something, `t0`
before any. -/
def lastRecv : UInt32 → List (Ev PLog) → UInt32
  | t0, [] => t0
  | t0, .recv _ _ ret _ :: .time t :: es => if 0 < ret then lastRecv t es else lastRecv t0 es
  | t0, _ :: es => lastRecv t0 es

/-- What a trace says about the location of the header section: where the first header field begins, where the last span reported so far ends,
where the data of the current call of the parser begins, and the length of the header section. The parser reports the end of the section, but
not the end of the last header line, so the length is measured up to the end of the last span, or to the beginning of the data being parsed when
that is later. -/
structure HdrScan where
  first : Option Nat
  lastEnd : Nat
  callAt : Nat
  len : Nat
deriving DecidableEq, Repr

/-- One parser event. -/
def HdrScan.obs (a : HdrScan) (o : PObs) : HdrScan :=
  match o.ev with
  | .status _ _ _ => { a with lastEnd := o.loc + o.data.length }
  | .headerField _ _ => { a with first := a.first.or (some o.loc), lastEnd := o.loc + o.data.length }
  | .headerValue _ _ => { a with lastEnd := o.loc + o.data.length }
  | .body _ _ => { a with lastEnd := o.loc + o.data.length }
  | .headersComplete _ _ _ _ => { a with len := match a.first with | none => 0 | some p => max a.lastEnd a.callAt - p }
  | _ => a

/-- One event. -/
def HdrScan.step (a : HdrScan) : Ev PLog → HdrScan
  | .parserCall off _ => { a with callAt := off }
  | .parserEvent (.obs o) => a.obs o
  | _ => a

/-- A trace. -/
def hdrScan (evs : List (Ev PLog)) : HdrScan := evs.foldl HdrScan.step ⟨none, 0, 0, 0⟩

/-- HTTP_RESPONSE_DO_NOT_PARSE_BODY_FLAG is bit 0 of respOptionFlags. -/
def headersOnly (respOptionFlags : UInt32) : Prop := respOptionFlags.toNat % 2 = 1

/-- The body a response object points to. -/
def bodyBytes (m : Mem) (r : Resp σ) : Bytes :=
  match r.pBuffer, r.pBody with
  | some b, some p => slice (m b) p r.bodyLen
  | _, _ => []

/-- All headers the parser found, trailers included: the last one as soon as its value has begun. -/
def allHeaders (os : List PObs) : List (Bytes × Bytes × Nat) := (view os).flush.headers

/-- A body fragment reported by the parser. -/
def isBodyObs (o : PObs) : Prop := ∃ off len, o.ev = .body off len

/-- The report of the end of the header section. -/
def isHeadersEnd (o : PObs) : Prop := ∃ at_ cl cc ka, o.ev = .headersComplete at_ cl cc ka

/-- The documented meaning of parser errors (core_http_client.h:252-330). -/
inductive Alert : Errno → Status → Prop
  /-- data after a "Connection: close" response -/
  | extraneous : Alert .closedConnection .extraneousResponseData
  | chunk : Alert .invalidChunkSize .invalidChunkHeader
  | version : Alert .invalidVersion .invalidProtocolVersion
  | status : Alert .invalidStatus .invalidStatusCode
  | char (er : Errno) : er = .strict ∨ er = .invalidConstant ∨ er = .lfExpected ∨ er = .invalidHeaderToken → Alert er .invalidCharacter
  | length (er : Errno) : er = .invalidContentLength ∨ er = .unexpectedContentLength → Alert er .invalidContentLength
  | internal (er : Errno) : er = .user ∨ (∃ n, er = .other n) → Alert er .parserInternalError

/-- The request is a HEAD request: its header block begins with "HEAD" followed by the space that ends the method (RFC 9112, 3). -/
def isHeadRequest (block : Bytes) : Prop := ascii "HEAD " <+: block

/-- What the caller must provide for receiving a response: a transport with a receive function honouring its contract, a response object with
a buffer of at least the claimed, non-zero length, a clock, and the request's headers. The parser honours the parser contract. -/
structure RecvPre (strict : Bool) (P : Parser) (cfg : Cfg) (T : Transport σ) (recv : σ → Nat → Int × Bytes × σ) (resp : Resp σ)
    (rh : ReqHeaders) (b rb : Nat) (m : Mem) : Prop where
  parser : ParserOk strict P
  hasRecv : T.recv = some recv
  recvOk : RecvOk recv
  buf : resp.pBuffer = some b
  pos : 0 < resp.bufferLen
  room : resp.bufferLen ≤ (m b).length
  size : resp.bufferLen < 2 ^ cfg.sizeBits
  clock : resp.getTime ≠ .null
  callback : resp.pHeaderParsingCallback ≠ some .null
  reqBuf : rh.pBuffer = some rb
  reqLen : 16 ≤ rh.headersLen
  reqRoom : rh.headersLen ≤ (m rb).length

end CoreHttp.Spec

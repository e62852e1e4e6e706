import Verif.Props.Receive
import Verif.Props.Response
import Verif.Ref.Http
import Verif.Ref.MachineView
import Verif.Props.Request

/-!
# Receiving: concrete runs

Non-vacuity of the hypotheses of C29–C49, and counterexamples for the properties that are false of the code. The parser is the reference parser
(Verif/Ref/Http.lean), the transport delivers a script, one piece per call.
-/

namespace CoreHttp.Props
open CoreHttp Spec Ref

/-- The network: a millisecond counter and the pieces still to be delivered; an empty piece, or none left, is an empty receive. -/
abbrev Script := Nat × List Bytes

/-- Deliver the next piece, as much of it as fits; this takes 1 ms. -/
def scriptRecv : Script → Nat → Int × Bytes × Script
  | (t, []), _ => (0, [], (t + 1, []))
  | (t, d :: ds), len => ((d.take len).length, d.take len, (t + 1, if d.length ≤ len then ds else d.drop len :: ds))

theorem scriptRecv_ok : RecvOk scriptRecv := by
  rintro ⟨t, s⟩ len
  cases s with
  | nil => simp [scriptRecv]
  | cons d ds => simp only [scriptRecv, List.length_take]; omega

/-- The clock. -/
def scriptClock : Script → UInt32 × Script := fun s => (UInt32.ofNat s.1, s)

theorem scriptClock_ok : ClockOk (fun s : Script => s.1) scriptClock := ⟨fun _ => rfl, fun _ => Nat.le_refl _⟩

theorem scriptRecv_time : RecvTakesTime (fun s : Script => s.1) scriptClock scriptRecv (4294967296 - exCfg.recvTimeoutMs.toNat) := by
  have : 4294967296 - exCfg.recvTimeoutMs.toNat = 4294967286 := by decide
  rw [this]
  rintro ⟨t, s⟩ len _
  cases s with
  | nil => simp [scriptRecv, scriptClock]
  | cons d ds => simp [scriptRecv, scriptClock]

/-- The transport. -/
def scriptT : Transport Script := ⟨some fun s d => (d.length, s), some scriptRecv⟩
/-- A header callback. -/
def exCb : HeaderCb Script := .user fun s _ _ _ _ _ => s
/-- A response object with a buffer of `n` bytes and what an earlier response left behind. -/
def exResp (n : Nat) (flags : UInt32) : Resp Script := ⟨some 1, n, some exCb, .user scriptClock, some 3, 4, some 5, 6, 999, 77, 8, 1, flags, 3⟩
/-- Request headers in block 0. -/
def exReq (req : Bytes) : ReqHeaders := ⟨some 0, req.length, req.length⟩
/-- Memory with the request in block 0. -/
def exRMem (req : Bytes) (n : Nat) : Mem := fun i => if i = 0 then req else List.replicate n 0

theorem exRecvPre (req : Bytes) (hreq : 16 ≤ req.length) (n : Nat) (hn : 0 < n) (h32 : n < 4294967296) (flags : UInt32) :
    RecvPre true httpParser exCfg scriptT scriptRecv (exResp n flags) (exReq req) 1 0 (exRMem req n) where
  parser := httpParser_ok
  hasRecv := rfl
  recvOk := scriptRecv_ok
  buf := rfl
  pos := hn
  room := by simp [exRMem, exResp]
  size := by have : (2 : Nat) ^ exCfg.sizeBits = 4294967296 := by decide
             rw [this]; exact h32
  clock := by simp [exResp]
  callback := by simp [exResp, exCb]
  reqBuf := rfl
  reqLen := hreq
  reqRoom := by simp [exRMem, exReq]

/-- A run: request, size of the response buffer, option flags, script. -/
def exRun (req : Bytes) (n : Nat) (flags : UInt32) (s : List Bytes) : Run (Status × Resp Script) × World PLog Script :=
  HTTPClient_ReceiveAndParseHttpResponse httpParser exCfg 50 (some scriptT) (some (exResp n flags)) (some (exReq req)) ⟨(4294967290, s), exRMem req n, []⟩

/-- What the application sees. -/
structure Seen where
  st : Status
  statusCode : Nat
  headers : List (Bytes × Bytes × Nat)
  headerCount : Nat
  pHeaders : Option Nat
  headersLen : Nat
  body : Bytes
  contentLength : Nat
  areHeadersComplete : Nat
  respFlags : UInt32
deriving DecidableEq, Repr

/-- Of a run. -/
def seen (x : Run (Status × Resp Script) × World PLog Script) : Option Seen :=
  match x.1 with
  | .ok (st, r) => some ⟨st, r.statusCode, reported x.2.log, r.headerCount, r.pHeaders, r.headersLen, bodyBytes x.2.mem r, r.contentLength,
      r.areHeadersComplete, r.respFlags⟩
  | _ => none

/-- A GET request. -/
def exGet : Bytes := ascii "GET / HTTP/1.1\r\n\r\n"

/-- A response with a chunked body, in pieces. -/
def exChunked : List Bytes := [ascii "HTTP/1.1 200 OK\r\nSer", [], ascii "ver: x\r\nTransfer-Encod", ascii "ing: chunked\r\n\r\n3\r\nab",
  ascii "c\r\n2\r\nde\r\n0\r\n\r\n"]


/-! ## Non-vacuity: the hypotheses hold, and the runs are not trivial -/

/-- A chunked response in pieces with an empty receive between them, starting just before the clock wraps around: success, with the headers and the
body without chunk framing. `RecvPre` and the hypotheses of C34 hold. -/
example : RecvPre true httpParser exCfg scriptT scriptRecv (exResp 200 0) (exReq exGet) 1 0 (exRMem exGet 200) ∧
    ClockOk (fun s : Script => s.1) scriptClock ∧
    RecvTakesTime (fun s : Script => s.1) scriptClock scriptRecv (4294967296 - exCfg.recvTimeoutMs.toNat) ∧
    seen (exRun exGet 200 0 exChunked) = some {
      st := .success
      statusCode := 200
      headers := [(ascii "Server", ascii "x", 200), (ascii "Transfer-Encoding", ascii "chunked", 200)]
      headerCount := 2
      pHeaders := some 17
      headersLen := 37
      body := ascii "abcde"
      contentLength := 0
      areHeadersComplete := 1
      respFlags := 0 } :=
  ⟨exRecvPre exGet (by decide) 200 (by decide) (by decide) 0, scriptClock_ok, scriptRecv_time, by decide +kernel⟩

/-- C44: two cuts of the same bytes, both parsed to the end; the parser does not depend on the cut. -/
example : ChunkFree httpParser ∧ received (exRun exGet 200 0 exChunked).2.log = received (exRun exGet 200 0 [exChunked.flatten]).2.log ∧
    seen (exRun exGet 200 0 exChunked) = seen (exRun exGet 200 0 [exChunked.flatten]) :=
  ⟨Machine.chunkFree http_machine_ok, by decide +kernel, by decide +kernel⟩

/-- C46: a run with HTTP_RESPONSE_DO_NOT_PARSE_BODY_FLAG; the body is raw. -/
example : headersOnly (exResp 200 1).respOptionFlags ∧ (view (obsOf (exRun exGet 200 1 exChunked).2.log)).contentLength.isSome ∧
    (seen (exRun exGet 200 1 exChunked)).map (fun s => (s.st, s.body)) = some (.success, ascii "3\r\nab") :=
  ⟨by unfold headersOnly; decide, by decide +kernel, by decide +kernel⟩

/-- C37: the four outcomes. -/
example : (seen (exRun exGet 200 0 [])).map (·.st) = some .noResponse ∧
    (seen (exRun exGet 16 0 exChunked)).map (·.st) = some .insufficientMemory ∧
    (seen (exRun exGet 200 0 [ascii "HTTP/1.1 20"])).map (·.st) = some .partialResponse ∧
    (seen (exRun exGet 200 0 exChunked)).map (·.st) = some .success := by decide +kernel

/-- C38: a parser error ends a run. -/
example : (seen (exRun exGet 200 0 [ascii "HTTP/1.1 200 OK\r\nContent-Length: x\r\n\r\n"])).map (·.st) = some .invalidContentLength ∧
    (seen (exRun exGet 200 0 [ascii "HTTP/2"])).map (·.st) = some .invalidCharacter := by decide +kernel

/-- C48: connection flags. -/
example : (seen (exRun exGet 200 0 [ascii "HTTP/1.1 204 X\r\nConnection: close\r\n\r\n"])).map (·.respFlags) = some 1 ∧
    (seen (exRun exGet 200 0 [ascii "HTTP/1.1 204 X\r\nConnection: keep-alive\r\n\r\n"])).map (·.respFlags) = some 2 := by decide +kernel

/-- C45: the response to a HEAD request has no body. -/
example : isHeadRequest (headerBlock (exRMem (ascii "HEAD / HTTP/1.1\r\n\r\n") 200) (exReq (ascii "HEAD / HTTP/1.1\r\n\r\n"))) ∧
    (seen (exRun (ascii "HEAD / HTTP/1.1\r\n\r\n") 200 0 [ascii "HTTP/1.1 200 OK\r\nContent-Length: 2\r\n\r\n"])).map
      (fun s => (s.st, s.body, s.contentLength)) = some (.success, [], 2) :=
  ⟨by unfold isHeadRequest; rw [← List.isPrefixOf_iff_prefix]; decide +kernel, by decide +kernel⟩

/-! ## Properties that are false of the code -/

/-- **C32 is false**: a call whose last receive delivered nothing never returns HTTPNetworkError. -/
theorem C32_refuted {σ : Type} {P : Parser} {cfg : Cfg} {strict : Bool} {T : Transport σ} {recv : σ → Nat → Int × Bytes × σ} {resp : Resp σ}
    {rh : ReqHeaders} {b rb : Nat} {w : World PLog σ} (hp : RecvPre strict P cfg T recv resp rh b rb w.mem) (fuel : Nat) :
    ∃ r w' evs, HTTPClient_ReceiveAndParseHttpResponse P cfg fuel (some T) (some resp) (some rh) w = (r, w') ∧ w'.log = w.log ++ evs ∧
      ∀ pre off len data post, evs = pre ++ .recv off len 0 data :: post → recvs post = [] → ∀ resp', r ≠ .ok (.networkError, resp') := by
  obtain ⟨r, w', evs, e, hl, _, h⟩ := C31_receive_error hp fuel
  refine ⟨r, w', evs, e, hl, ?_⟩
  intro pre off len data post h1 h2 resp' hr
  obtain ⟨pre', off', len', ret', data', h3, h4⟩ := h resp' hr
  have hlast : ∀ (xs ys : List (Ev PLog)) (o1 l1 : Nat) (r1 : Int) (d1 : Bytes), recvs (xs ++ .recv o1 l1 r1 d1 :: ys) =
      recvs xs ++ (o1, l1, r1, d1) :: recvs ys := by
    intro xs ys o1 l1 r1 d1
    induction xs with
    | nil => rfl
    | cons x xs ih => cases x <;> simp [recvs, ih]
  have h5 : recvs evs = recvs pre ++ [(off, len, 0, data)] := by rw [h1, hlast, h2]
  have h6 : recvs evs = recvs pre' ++ [(off', len', ret', data')] := by rw [h3, hlast]; rfl
  rw [h5] at h6
  have h7 := (List.append_inj' h6 rfl).2
  simp only [List.cons.injEq, Prod.mk.injEq, and_true] at h7
  omega

/-- C32 is not vacuous: the retry timeout expires in the middle of a response. -/
example : (seen (exRun exGet 200 0 [ascii "HTTP/1.1 20"])).map (·.st) = some .partialResponse ∧
    (recvs (exRun exGet 200 0 [ascii "HTTP/1.1 20"]).2.log).map (·.2.2.1) = [11, 0, 0, 0, 0, 0, 0, 0, 0, 0, 0] := by decide +kernel

/-- **C36 and C47 are false** with HTTP_RESPONSE_DO_NOT_PARSE_BODY_FLAG: when the retry timeout expires before the end of the header section, the call
returns HTTPSuccess, with contentLength and areHeadersComplete of an earlier response. -/
theorem C36_refuted :
    RecvPre true httpParser exCfg scriptT scriptRecv (exResp 200 1) (exReq exGet) 1 0 (exRMem exGet 200) ∧
    (seen (exRun exGet 200 1 [ascii "HTTP/1.1 200 OK\r\nServer: x\r\n"])).map (·.st) = some .success ∧
    (view (obsOf (exRun exGet 200 1 [ascii "HTTP/1.1 200 OK\r\nServer: x\r\n"]).2.log)).contentLength = none ∧
    reported (exRun exGet 200 1 [ascii "HTTP/1.1 200 OK\r\nServer: x\r\n"]).2.log = [] :=
  ⟨exRecvPre exGet (by decide) 200 (by decide) (by decide) 1, by decide +kernel, by decide +kernel, by decide +kernel⟩

/-- **C47 is false**: HTTPSuccess with the content length 77 and the completeness mark left by an earlier response, and with others when the object
held others. -/
theorem C47_refuted : ∃ r : Resp Script, r.pBuffer = (exResp 200 1).pBuffer ∧ r.bufferLen = (exResp 200 1).bufferLen ∧
    r.pHeaderParsingCallback = (exResp 200 1).pHeaderParsingCallback ∧ r.getTime = (exResp 200 1).getTime ∧
    r.respOptionFlags = (exResp 200 1).respOptionFlags ∧
    (seen (exRun exGet 200 1 [ascii "HTTP/1.1 200 OK\r\nServer: x\r\n"])).map (fun s => (s.st, s.contentLength, s.areHeadersComplete)) =
      some (.success, 77, 1) ∧
    (seen (HTTPClient_ReceiveAndParseHttpResponse httpParser exCfg 50 (some scriptT) (some r) (some (exReq exGet))
      ⟨(4294967290, [ascii "HTTP/1.1 200 OK\r\nServer: x\r\n"]), exRMem exGet 200, []⟩)).map
      (fun s => (s.st, s.contentLength, s.areHeadersComplete)) = some (.success, 0, 0) :=
  ⟨{ exResp 200 1 with contentLength := 0, areHeadersComplete := 0 }, rfl, rfl, rfl, rfl, rfl, by decide +kernel, by decide +kernel⟩

/-- **C43 is false**: the same complete response, cut in two ways; headersLen is 17 in one and 20, counting line ends, in the other. -/
theorem C43_refuted :
    (seen (exRun exGet 200 0 [ascii "HTTP/1.1 200 OK\r\nContent-Length: 0\r\n\r\n"])).map (fun s => (s.st, s.pHeaders, s.headersLen)) =
      some (.success, some 17, 17) ∧
    (seen (exRun exGet 200 0 [ascii "HTTP/1.1 200 OK\r\nContent-Length: 0\r\n\r", ascii "\n"])).map (fun s => (s.st, s.pHeaders, s.headersLen)) =
      some (.success, some 17, 20) := by decide +kernel

/-- **C45 is false** of a method that merely begins with "HEAD": the body of the response is taken for a further response. -/
theorem C45_refuted :
    RecvPre true httpParser exCfg scriptT scriptRecv (exResp 200 0) (exReq (ascii "HEADX / HTTP/1.1\r\n\r\n")) 1 0
      (exRMem (ascii "HEADX / HTTP/1.1\r\n\r\n") 200) ∧
    ¬ isHeadRequest (headerBlock (exRMem (ascii "HEADX / HTTP/1.1\r\n\r\n") 200) (exReq (ascii "HEADX / HTTP/1.1\r\n\r\n"))) ∧
    (seen (exRun (ascii "HEADX / HTTP/1.1\r\n\r\n") 200 0 [ascii "HTTP/1.1 200 OK\r\nContent-Length: 2\r\n\r\nab"])).map (·.st) =
      some .invalidCharacter :=
  ⟨exRecvPre _ (by decide +kernel) 200 (by decide) (by decide) 0, by unfold isHeadRequest; rw [← List.isPrefixOf_iff_prefix]; decide +kernel,
    by decide +kernel⟩

/-- **C49 is false** when size_t has 32 bits: a Content-Length of 2^32 + 2 is reported as 2. -/
theorem C49_refuted : exCfg.sizeBits = 32 ∧
    (seen (exRun exGet 200 0 [ascii "HTTP/1.1 200 OK\r\nContent-Length: 4294967298\r\n\r\nab"])).map
      (fun s => (s.st, s.headers.map (·.2.1), s.contentLength)) = some (.partialResponse, [ascii "4294967298"], 2) := by decide +kernel

/-- **C51 is false**: two responses in one receive are reported as one, with HTTPSuccess, the status code of the second, the headers of both and the
concatenation of the bodies. -/
theorem C51_refuted :
    seen (exRun exGet 200 0 [ascii "HTTP/1.1 200 OK\r\nContent-Length: 2\r\n\r\nabHTTP/1.1 404 X\r\nContent-Length: 1\r\n\r\nc"]) = some {
      st := .success
      statusCode := 404
      headers := [(ascii "Content-Length", ascii "2", 200), (ascii "Content-Length", ascii "1", 404)]
      headerCount := 2
      pHeaders := some 17
      headersLen := 56
      body := ascii "abc"
      contentLength := 1
      areHeadersComplete := 1
      respFlags := 0 } := by decide +kernel

/-- **C52 is false**: of two trailer fields the last is not reported. -/
theorem C52_refuted :
    (seen (exRun exGet 200 0
      [ascii "HTTP/1.1 200 OK\r\nTransfer-Encoding: chunked\r\n\r\n2\r\nab\r\n0\r\nDigest: q\r\nX: y\r\n\r\n"])).map (fun s => (s.st, s.headerCount)) =
      some (.success, 2) ∧
    reported (exRun exGet 200 0
      [ascii "HTTP/1.1 200 OK\r\nTransfer-Encoding: chunked\r\n\r\n2\r\nab\r\n0\r\nDigest: q\r\nX: y\r\n\r\n"]).2.log =
      [(ascii "Transfer-Encoding", ascii "chunked", 200), (ascii "Digest", ascii "q", 200)] := by decide +kernel

/-- The hypotheses of C37_empty_buffer hold of this transport and clock, and this is the run. -/
example : ∃ s' : Script, scriptRecv (scriptClock (5, [])).2 0 = (0, [], s') ∧ (scriptClock s').1 - (scriptClock (5, [])).1 < exCfg.recvTimeoutMs :=
  ⟨(6, []), rfl, by decide⟩

example : (match (exRun exGet 0 0 []).1 with | .ok x => some x.1 | _ => none) = some .noResponse := by decide +kernel

end CoreHttp.Props

import Verif.Props.Session
import Verif.Props.Request
import Verif.Spec.EndToEnd

/-! # C64: from the description of a request to what the peer reads -/

namespace CoreHttp.Props
open CoreHttp Spec
variable {σ : Type} {P : Parser} {cfg : Cfg} {strict : Bool} {T : Transport σ} {send : σ → Bytes → Int × σ} {recv : σ → Nat → Int × Bytes × σ}
  {resp : Resp σ} {h : ReqHeaders} {b rb : Nat} {body : Option Nat} {n : Nat} {flags : UInt32}

/-- A defined abstract request has at least the Host header. -/
theorem absRun_ne (ua : Bytes) : ∀ (l : List (BuildOp × Status)) (a : AbsReq), (∀ line hs, a = some (line, hs) → hs ≠ []) →
    ∀ line hs, absRun ua a l = some (line, hs) → hs ≠ []
  | [], a, ha, line, hs, h => ha line hs h
  | (op, st) :: l, a, ha, line, hs, h => by
    refine absRun_ne ua l (absStep ua a op st) ?_ line hs h
    intro line' hs' h'
    unfold absStep at h'
    split at h'
    · cases h'; simp [documentedHeaders]
    · exact ha _ _ h'
    · cases h'
    · cases a with
      | none => cases h'
      | some x => cases h'; simp
    · cases a with
      | none => cases h'
      | some x => cases h'; simp
    · cases h'
    · exact ha _ _ h'

theorem wireHeaders_block {line : Bytes} {hs : List (Bytes × Bytes)} (hne : hs ≠ []) (n fl : Nat) :
    wireHeaders (requestBlock line hs) n fl = requestBlock line (hs ++ autoLength n fl) := by
  unfold wireHeaders autoLength
  cases ha : addsContentLength n fl with
  | false => simp
  | true =>
    have : stripBlankLine (requestBlock line hs) = line ++ headerLines hs := by
      unfold requestBlock
      apply strip_crlf
      obtain ⟨pre, p, rfl⟩ : ∃ pre p, hs = pre ++ [p] := ⟨hs.dropLast, hs.getLast hne, (List.dropLast_concat_getLast hne).symm⟩
      rw [headerLines_append, ← List.append_assoc]
      have : headerLines [p] = headerLine p.1 p.2 := by simp [headerLines]
      rw [this]
      exact crlf_suffix_headerLine _ _ _
    simp only [if_true]
    rw [this]
    unfold requestBlock
    rw [headerLines_append]
    simp [headerLines, List.append_assoc]

/-- **What building leaves**: the conditions for sending. -/
theorem built {m m1 : Mem} {ops : List BuildOp} {sts : List Status} {rh : ReqHeaders} {me path : Bytes} {hs : List (Bytes × Bytes)}
    (hset : Setup strict P cfg T send recv h rb body n resp b m) (hops : ∀ op ∈ ops, OpOk cfg h.bufferLen op)
    (hbuild : runBuildOps cfg m h ops = .ok (sts, rh, m1))
    (habs : absRun cfg.userAgent none (ops.zip sts) = some (requestLine me path, hs)) :
    CallPre strict P cfg T send recv rh rb body n resp b m1 ∧ rh.bufferLen = h.bufferLen ∧
      headerBlock m1 rh = requestBlock (requestLine me path) hs ∧ hs ≠ [] ∧ (∀ p ∈ hs, p.1 ≠ [] ∧ CleanField p.1 ∧ CleanValue p.2) ∧
      bodyOf m1 body n = bodyOf m body n := by
  obtain ⟨sts', h', m', e, hlen, hb, hbl, _, hfr, ha⟩ := runBuildOps_spec hset.agent ops m h rb none hset.reqBuf hset.reqRoom hops
  rw [hbuild] at e
  cases e
  obtain ⟨hB, _, hcl⟩ := ha (by simp) _ _ habs
  have hne := absRun_ne cfg.userAgent _ none (by simp) _ _ habs
  have hl : ∀ i, (m1 i).length = (m i).length := by
    intro i
    by_cases hi : i = rb
    · subst hi; exact hfr.2.1
    · rw [hfr.1 i hi]
  refine ⟨?_, hbl, hB.eq, hne, hcl, ?_⟩
  · exact {
      parser := hset.parser
      hasSend := hset.hasSend
      sendOk := hset.sendOk
      hasRecv := hset.hasRecv
      recvOk := hset.recvOk
      reqBuf := hb
      reqRoom := by rw [hbl, hl]; exact hset.reqRoom
      reqLen := by
        rw [hB.len]
        obtain ⟨p, t, rfl⟩ : ∃ p t, hs = p :: t := by cases hs with | nil => exact absurd rfl hne | cons p t => exact ⟨p, t, rfl⟩
        unfold requestBlock
        rw [headerLines_cons]
        simp only [List.length_append, requestLine_length, headerLine_length, crlf, List.length_cons, List.length_nil]
        omega
      reqLe := hB.le
      reqSize := by rw [hbl]; exact hset.reqSize
      buf := hset.buf
      pos := hset.pos
      callback := hset.callback
      room := by rw [hl]; exact hset.room
      size := hset.size
      bodyNone := hset.bodyNone
      bodyRoom := fun bb hb => ⟨by rw [hl]; exact (hset.bodyRoom bb hb).1, (hset.bodyRoom bb hb).2⟩
      bodyMax := hset.bodyMax }
  · cases hb : body with
    | none => rfl
    | some bb => unfold bodyOf; dsimp only; rw [hfr.1 bb (hset.bodyRoom bb hb).2]

/-- Reading back what is on the wire. -/
theorem wire_reads {me path : Bytes} {hs : List (Bytes × Bytes)} (hm : CleanValue me) (hpa : CleanValue path)
    (hcl : ∀ p ∈ hs, p.1 ≠ [] ∧ CleanField p.1 ∧ CleanValue p.2) (rest : Bytes) (n fl : Nat) :
    readRequest (requestBlock (requestLine me path) (hs ++ autoLength n fl) ++ rest) =
      some (me ++ ascii " " ++ path ++ ascii " HTTP/1.1", hs ++ autoLength n fl, rest) := by
  have := readRequest_block me path (hs ++ autoLength n fl) rest hm hpa (by
    intro q hq
    rcases List.mem_append.mp hq with hq | hq
    · exact hcl q hq
    · unfold autoLength at hq
      split at hq
      · simp only [List.mem_cons, List.not_mem_nil, or_false] at hq
        subst hq
        exact ⟨show ascii "Content-Length" ≠ [] by decide, show CleanField (ascii "Content-Length") by decide, clean_decimal n⟩
      · cases hq)
  rw [this]
  have e1 : ascii " " = [32] := by decide
  have e2 : ascii " HTTP/1.1" = [32] ++ ascii "HTTP/1.1" := by decide
  rw [e1, e2]; simp [List.append_assoc]

/-- **C64.** Build a request by any sequence of InitializeRequestHeaders, AddHeader and AddRangeHeader calls, of which any may fail, then send it with any
body, to any peer. Unless the call returns HTTPNetworkError (or there was no room for the Content-Length line: hypothesis `hfit`), the bytes the transport
accepted, read by the HTTP line grammar, are exactly the method and path, the accepted headers in order, the Content-Length header (if one is due),
and the body. In any case they are a prefix of that. -/
theorem C64_request_on_wire {m m1 : Mem} {ops : List BuildOp} {sts : List Status} {rh : ReqHeaders} {me path : Bytes} {hs : List (Bytes × Bytes)}
    (hset : Setup strict P cfg T send recv h rb body n resp b m) (hops : ∀ op ∈ ops, OpOk cfg h.bufferLen op)
    (hbuild : runBuildOps cfg m h ops = .ok (sts, rh, m1))
    (habs : absRun cfg.userAgent none (ops.zip sts) = some (requestLine me path, hs)) (hm : CleanValue me) (hpa : CleanValue path)
    (hfit : (requestBlock (requestLine me path) (hs ++ autoLength n flags.toNat)).length ≤ h.bufferLen)
    {s : σ} {l : List (Ev PLog)} {fuel : Nat} {st : Status} {orh : Option ReqHeaders} {oresp : Option (Resp σ)} {w' : World PLog σ} {evs : List (Ev PLog)}
    (e : HTTPClient_Send P cfg fuel (some T) (some rh) body n (some resp) flags ⟨s, m1, l⟩ = (.ok (st, orh, oresp), w')) (hl : w'.log = l ++ evs) :
    accepted evs <+: requestBlock (requestLine me path) (hs ++ autoLength n flags.toNat) ++ bodyOf m body n ∧
    (st ≠ .networkError → readRequest (accepted evs) =
      some (me ++ ascii " " ++ path ++ ascii " HTTP/1.1", hs ++ autoLength n flags.toNat, bodyOf m body n)) := by
  obtain ⟨hp, hbl, hB, hne, hcl, hbd⟩ := built hset hops hbuild habs
  have hw := wireHeaders_block (line := requestLine me path) hne n flags.toNat
  have := (send_accepts (w := ⟨s, m1, l⟩) hp e hl).2 (by dsimp only; rw [hB, hw, hbl]; exact hfit)
  unfold wireRequest at this
  dsimp only at this
  rw [hB, hw, hbd] at this
  refine ⟨this.1, fun hst => ?_⟩
  rw [this.2 hst]
  exact wire_reads hm hpa hcl _ _ _

/-- **C64, with a cooperative peer.** Build a request, send it to a peer that takes it and answers with a well-formed response that fits: the call returns
HTTPSuccess, what the peer got reads as exactly the described request, and the application gets exactly the response. -/
theorem C64_end_to_end {m m1 : Mem} {ops : List BuildOp} {sts : List Status} {rh : ReqHeaders} {me path : Bytes} {hs : List (Bytes × Bytes)}
    (hset : Setup true Ref.httpParser cfg T send recv h rb body n resp b m) (hops : ∀ op ∈ ops, OpOk cfg h.bufferLen op)
    (hbuild : runBuildOps cfg m h ops = .ok (sts, rh, m1))
    (habs : absRun cfg.userAgent none (ops.zip sts) = some (requestLine me path, hs)) (hm : CleanValue me) (hpa : CleanValue path)
    (hfit : (requestBlock (requestLine me path) (hs ++ autoLength n flags.toNat)).length ≤ h.bufferLen)
    {head : Bool} {r : Response} (ok : r.Ok head) (hhead : if head then me = ascii "HEAD" else ¬ ascii "HEAD" <+: requestLine me path)
    (hflag : ¬ headersOnly resp.respOptionFlags)
    (hfit' : r.bytes.length ≤ resp.bufferLen) {got rest : σ → Bytes}
    (hP : Peer (requestBlock (requestLine me path) (hs ++ autoLength n flags.toNat) ++ bodyOf m body n) r.bytes got rest send recv resp)
    {s : σ} {l : List (Ev PLog)} (hgot : got s = []) {fuel : Nat} (hf1 : h.bufferLen ≤ fuel) (hf2 : n ≤ fuel) (hf3 : resp.bufferLen < fuel) :
    ∃ rh' resp' w' evs, HTTPClient_Send Ref.httpParser cfg fuel (some T) (some rh) body n (some resp) flags ⟨s, m1, l⟩ =
        (.ok (.success, some rh', some resp'), w') ∧ w'.log = l ++ evs ∧
      readRequest (got w'.env) = some (me ++ ascii " " ++ path ++ ascii " HTTP/1.1", hs ++ autoLength n flags.toNat, bodyOf m body n) ∧
      rest w'.env = [] ∧ Got cfg r resp.pHeaderParsingCallback.isSome evs w'.mem resp' := by
  obtain ⟨hp, hbl, hB, hne, hcl, hbd⟩ := built hset hops hbuild habs
  have hw := wireHeaders_block (line := requestLine me path) hne n flags.toNat
  have hwr : wireRequest m1 rh body n flags = requestBlock (requestLine me path) (hs ++ autoLength n flags.toNat) ++ bodyOf m body n := by
    unfold wireRequest; rw [hB, hw, hbd]
  obtain ⟨rh', resp', w', evs, e, hl, g1, g2, _, _, g5⟩ := C58_exchange (w := ⟨s, m1, l⟩) (flags := flags) (fuel := fuel) hp ok
    (show ReqIs head (headerBlock m1 rh) by
      rw [hB]
      unfold ReqIs
      cases head with
      | true =>
        simp only [if_true] at hhead ⊢
        subst hhead
        exact ⟨path ++ [32] ++ ascii "HTTP/1.1" ++ crlf ++ headerLines hs ++ crlf, by
          unfold requestBlock requestLine
          have : ascii "HEAD " = ascii "HEAD" ++ [32] := by decide
          rw [this]; simp [List.append_assoc]⟩
      | false =>
        simp only [Bool.false_eq_true, if_false] at hhead ⊢
        intro hpre
        apply hhead
        unfold requestBlock at hpre
        rw [List.append_assoc] at hpre
        refine List.prefix_of_prefix_length_le hpre (List.prefix_append _ _) ?_
        rw [requestLine_length]
        have : (ascii "HEAD").length = 4 := by decide
        omega)
    hflag hfit' (show (wireHeaders (headerBlock m1 rh) n flags.toNat).length ≤ rh.bufferLen by rw [hB, hw, hbl]; exact hfit)
    (show Peer (wireRequest m1 rh body n flags) r.bytes got rest send recv resp by rw [hwr]; exact hP) hgot (by rw [hbl]; exact hf1) hf2 hf3
  refine ⟨rh', resp', w', evs, e, hl, ?_, g2, g5⟩
  have g1' : got w'.env = wireRequest m1 rh body n flags := g1
  rw [g1', hwr]
  exact wire_reads hm hpa hcl _ _ _

/-! ### Non-vacuity -/

/-- A request object of 190 bytes, not yet initialised. -/
def eHdr : ReqHeaders := ⟨some 0, 190, 7⟩
/-- Calls, of which the third (empty value) is rejected. -/
def eOps : List BuildOp :=
  [.init (some ⟨some (ascii "PUT"), some (ascii "/x"), some (ascii "host"), 3⟩), .addHeader (some (ascii "A")) (some (ascii "1")),
   .addHeader (some (ascii "B")) (some []), .addRange 0 99]
/-- The headers of the request. -/
def eHs : List (Bytes × Bytes) := [(ascii "Host", ascii "host"), (ascii "Connection", ascii "keep-alive"), (ascii "A", ascii "1"), (ascii "Range", ascii "bytes=0-99")]
/-- What the peer should get. -/
def eWire : Bytes := requestBlock (requestLine (ascii "PUT") (ascii "/x")) (eHs ++ autoLength 5 0) ++ ascii "hello"

example (t : Nat) : ∃ sts rh m1 rh' resp' w' evs, runBuildOps exCfg xMem eHdr eOps = .ok (sts, rh, m1) ∧
    HTTPClient_Send Ref.httpParser exCfg 300 (some (peerT eWire exResponse.bytes)) (some rh) (some 2) 5 (some (peerResp 1)) 0 ⟨(t, [], []), m1, []⟩ =
      (.ok (.success, some rh', some resp'), w') ∧ w'.log = evs ∧
    readRequest w'.env.2.1 = some (ascii "PUT /x HTTP/1.1",
      [(ascii "Host", ascii "host"), (ascii "Connection", ascii "keep-alive"), (ascii "A", ascii "1"), (ascii "Range", ascii "bytes=0-99"),
       (ascii "Content-Length", ascii "5")], ascii "hello") ∧
    Got exCfg exResponse true evs w'.mem resp' := by
  have hops : ∀ op ∈ eOps, OpOk exCfg eHdr.bufferLen op := by
    intro op hop
    simp only [eOps, List.mem_cons, List.not_mem_nil, or_false] at hop
    rcases hop with rfl | rfl | rfl | rfl
    · exact ⟨by decide, trivial⟩
    · exact ⟨by decide, trivial⟩
    · exact ⟨by decide, trivial⟩
    · exact ⟨by decide, by decide, by decide⟩
  obtain ⟨sts, rh, m1, e, _⟩ := C05_history (cfg := exCfg) (by decide) (m := xMem) (h := eHdr) (b := 0) (ops := eOps) ⟨rfl, by decide +kernel⟩ hops
  have hsts : sts = [.success, .success, .invalidParameter, .success] := by
    have : (match runBuildOps exCfg xMem eHdr eOps with | .ok x => x.1 | _ => []) = [.success, .success, .invalidParameter, .success] := by
      decide +kernel
    rw [e] at this; exact this
  have hx := peerCallPre eWire exResponse.bytes 1 (.inr rfl)
  have hset : Setup true Ref.httpParser exCfg (peerT eWire exResponse.bytes) (peerSend eWire exResponse.bytes) peerRecv eHdr 0 (some 2) 5 (peerResp 1) 1 xMem :=
    { parser := hx.parser, hasSend := hx.hasSend, sendOk := hx.sendOk, hasRecv := hx.hasRecv, recvOk := hx.recvOk, agent := by decide, reqBuf := rfl
      reqRoom := by decide +kernel
      reqSize := by decide
      buf := hx.buf, pos := hx.pos, room := hx.room, size := hx.size, callback := hx.callback, bodyNone := hx.bodyNone, bodyRoom := hx.bodyRoom, bodyMax := hx.bodyMax }
  obtain ⟨rh', resp', w', evs, e2, hl, g1, _, g3⟩ := C64_end_to_end (flags := 0) (fuel := 300) (me := ascii "PUT") (path := ascii "/x") (hs := eHs)
    (got := fun s : PeerEnv => s.2.1) (rest := fun s => s.2.2) (s := (t, [], [])) (l := []) hset hops e
    (by rw [hsts]; decide +kernel) (by decide) (by decide) (by decide +kernel) exResponse_ok (by decide +kernel)
    (show ¬ ((0 : UInt32).toNat % 2 = 1) by decide) (show exResponse.bytes.length ≤ 200 by decide +kernel) (peer_ok eWire _ 1) rfl (by decide) (by decide) (show 200 < 300 by decide)
  refine ⟨sts, rh, m1, rh', resp', w', evs, e, e2, by simpa using hl, ?_, g3⟩
  rw [show w'.env.2.1 = (fun s : PeerEnv => s.2.1) w'.env from rfl, g1]
  decide +kernel

end CoreHttp.Props

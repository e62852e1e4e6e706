import Verif.Spec.Expect
import Verif.Props.Steps

/-! # C107: asking before sending the body -/

namespace CoreHttp.Props
open CoreHttp Spec Ref Machine
variable {σ : Type} {cfg : Cfg} {T : Transport σ} {send : σ → Bytes → Int × σ} {recv : σ → Nat → Int × Bytes × σ} {rh : ReqHeaders} {rb b n : Nat}
  {resp : Resp σ} {flags : UInt32} {got rest : σ → Bytes}

/-- The first half: headers out, a response in. -/
theorem ask {w : World PLog σ} {head : Bool} {r : Response}
    (hp : CallPre true httpParser cfg T send recv rh rb none 0 resp b w.mem) (hc : resp.getTime ≠ .null) (hn : n ≤ 2147483647) (hne : b ≠ rb)
    (ok : r.Ok head) (hreq : ReqIs head (headerBlock w.mem rh)) (hflag : ¬ headersOnly resp.respOptionFlags)
    (hfit : r.bytes.length ≤ resp.bufferLen) (hfit' : (wireHeaders (headerBlock w.mem rh) n flags.toNat).length ≤ rh.bufferLen)
    (hP : Peer (wireHeaders (headerBlock w.mem rh) n flags.toNat) r.bytes got rest send recv resp) (hgot : got w.env = [])
    {fuel : Nat} (hf1 : rh.bufferLen ≤ fuel) (hf3 : resp.bufferLen < fuel) :
    ∃ h' w1 evs1 resp1 w2 evs2, HTTPClient_SendHttpHeaders cfg fuel (some T) resp.getTime (some rh) n flags w = (.ok (.success, some h'), w1) ∧
      HTTPClient_ReceiveAndParseHttpResponse httpParser cfg fuel (some T) (some resp) (some h') w1 = (.ok (.success, resp1), w2) ∧
      w1.log = w.log ++ evs1 ∧ w2.log = w1.log ++ evs2 ∧ accepted evs1 = wireHeaders (headerBlock w.mem rh) n flags.toNat ∧
      (∀ e ∈ evs1, e.isSending = true) ∧ accepted evs2 = [] ∧ received evs2 = r.bytes ∧
      got w2.env = wireHeaders (headerBlock w.mem rh) n flags.toNat ∧ rest w2.env = [] ∧
      Got cfg r resp.pHeaderParsingCallback.isSome evs2 w2.mem resp1 ∧ SetUp resp resp1 ∧
      headerBlock w2.mem h' = wireHeaders (headerBlock w.mem rh) n flags.toNat ∧ RecvPre true httpParser cfg T recv resp1 h' b rb w2.mem ∧
      (∀ i, (w2.mem i).length = (w.mem i).length) := by
  have hblk16 : 16 ≤ (headerBlock w.mem rh).length := by
    have h1 := hp.reqLen; have h2 := hp.reqRoom; have h3 := hp.reqLe
    unfold headerBlock; rw [hp.reqBuf]; simp only [List.length_take]; omega
  have hwr : wireHeaders (headerBlock w.mem rh) n flags.toNat ≠ [] := by
    intro h
    have h1 := congrArg List.length (wireHeaders_take hblk16 n flags.toNat)
    rw [h] at h1
    simp at h1
    omega
  have hreq' := reqIs_wire hblk16 n flags.toNat hreq
  have pre : SendPre cfg T send resp.getTime w.mem rh rb := ⟨hp.hasSend, hp.sendOk, hc, ⟨hp.reqBuf, hp.reqRoom⟩, hp.reqLe, hp.reqSize⟩
  have k1 := sendHeaders_keeps (cfg := cfg) (rh := rh) (n := n) (flags := flags) (sending_inv hP w.log) hp.hasSend fuel w
    ⟨[], by simp, by simpa [accepted] using hgot, fun h => absurd h.symm hwr⟩
  obtain ⟨h', m1, hb, hbl, hle, hfr, hB, hlen, _, e⟩ := sendHeaders_fit (fuel := fuel) pre hn hfit'
  have hml : h'.headersLen ≤ (m1 rb).length := by rw [hfr.2.1]; have := hp.reqRoom; omega
  have hd1 := sendData_all (cfg := cfg) (fuel := fuel) (w := ⟨w.env, m1, w.log⟩) hp.hasSend hp.sendOk hP.accepts hc hml (by omega)
  obtain ⟨r1, s', t0, evs, e2, tr⟩ := sendData_trace (cfg := cfg) (fuel := fuel) (w := ⟨w.env, m1, w.log⟩) pre.transport pre.sendOk
    pre.clockOk hml
  have hblk : (m1 rb).take h'.headersLen = wireHeaders (headerBlock w.mem rh) n flags.toNat := by rw [← hB]; simp [headerBlock, hb]
  dsimp only at e2 tr
  rw [hblk] at tr
  rw [e2] at hd1
  dsimp only at hd1
  subst hd1
  have hall := tr.accepted_prefix.2.mp rfl
  have hk : ∀ e ∈ Ev.time t0 :: evs, e.isSending = true := by
    intro e he
    rcases List.mem_cons.mp he with rfl | he
    · rfl
    · exact tr.kinds e he
  rw [e] at k1
  simp only [M.bind_apply, e2, M.pure_apply] at k1
  obtain ⟨⟨evs', hl', g1, g2⟩, _⟩ := k1
  obtain rfl : Ev.time t0 :: evs = evs' := List.append_cancel_left hl'
  have hall' : accepted (Ev.time t0 :: evs) = wireHeaders (headerBlock w.mem rh) n flags.toNat := hall
  have hr := recvPre_steps (n := n) (flags := flags) (m2 := m1) hp hc hfr hb hbl hle hB hlen fun _ => rfl
  obtain ⟨resp1, w2, evs2, e4, hl4, b1, b2, b3, b4⟩ := C58_peer_receive (w := ⟨s', m1, w.log ++ Ev.time t0 :: evs⟩) (r := r) (head := head) hr ok
    (by dsimp only; rw [hB]; exact hreq') hflag hfit hP (g1.trans hall') (g2 hall') hf3
  obtain ⟨_, _, evs4, e5, hl5, hns, _, hfr2⟩ := receive_no_send (w := ⟨s', m1, w.log ++ Ev.time t0 :: evs⟩) hr fuel
  rw [e4] at e5; cases e5
  obtain rfl : evs2 = evs4 := List.append_cancel_left (hl4.symm.trans hl5)
  have hsu := receive_setUp hr e4
  have hl2 : ∀ i, (w2.mem i).length = (m1 i).length := by
    intro i
    by_cases h : i = b
    · subst h; exact hfr2.2.1
    · rw [hfr2.1 i h]
  have hl1 : ∀ i, (m1 i).length = (w.mem i).length := by
    intro i
    by_cases h : i = rb
    · subst h; exact hfr.2.1
    · rw [hfr.1 i h]
  refine ⟨h', ⟨s', m1, w.log ++ Ev.time t0 :: evs⟩, Ev.time t0 :: evs, resp1, w2, evs2, ?_, e4, rfl, hl4, hall', hk, (sends_nil hns).2, b1, b3, b2, b4, hsu, ?_, ?_,
    fun i => (hl2 i).trans (hl1 i)⟩
  · rw [e]; simp only [M.bind_apply, e2, M.pure_apply]
  · rw [← hB]; unfold headerBlock; rw [hb]; dsimp only; rw [hfr2.1 rb (Ne.symm hne)]
  · obtain ⟨s1, s2, s3, s4, s5⟩ := hsu
    exact { hr with
      buf := s1.trans hr.buf
      pos := by rw [s2]; exact hr.pos
      room := by rw [hl2, s2]; exact hr.room
      size := by rw [s2]; exact hr.size
      clock := by rw [s4]; exact hr.clock
      callback := by rw [s3]; exact hr.callback
      reqRoom := by rw [hl2]; exact hr.reqRoom }

/-- **C107, the server consents.** For every request whose headers fit in their buffer, every body in any number of pieces of any size, every 100 response
and every well-formed final response that fit in the response buffer, and every peer that answers the headers with the former and the body with the latter,
in pieces of any size: the program ends with HTTPSuccess and the final response, the peer has got exactly the headers and the body, nothing is left over, and
nothing of the body was sent before all of the 100 response had been received. -/
theorem C107_consent {w : World PLog σ} {head : Bool} {r1 r : Response} {ps : List Piece}
    (hp : CallPre true httpParser cfg T send recv rh rb none 0 resp b w.mem) (hc : resp.getTime ≠ .null) (hn : n ≤ 2147483647) (hne : b ≠ rb)
    (hps : PiecesOk w.mem rb ps) (hps0 : piecesBytes ps ≠ [])
    (ok1 : r1.Ok head) (h100 : r1.code = 100) (ok : r.Ok head) (hreq : ReqIs head (headerBlock w.mem rh)) (hflag : ¬ headersOnly resp.respOptionFlags)
    (hfit1 : r1.bytes.length ≤ resp.bufferLen) (hfit : r.bytes.length ≤ resp.bufferLen)
    (hfit' : (wireHeaders (headerBlock w.mem rh) n flags.toNat).length ≤ rh.bufferLen)
    (hP1 : Peer (wireHeaders (headerBlock w.mem rh) n flags.toNat) r1.bytes got rest send recv resp)
    (hP : Peer (wireHeaders (headerBlock w.mem rh) n flags.toNat ++ piecesBytes ps) r.bytes got rest send recv resp) (hgot : got w.env = [])
    {fuel : Nat} (hf1 : rh.bufferLen ≤ fuel) (hf2 : ∀ p ∈ ps, p.2.length ≤ fuel) (hf3 : resp.bufferLen < fuel) :
    ∃ resp' w' evs1 evs2, expectContinue httpParser cfg fuel T rh n flags ps resp w = (.ok (.success, resp'), w') ∧
      w'.log = w.log ++ (evs1 ++ evs2) ∧ got w'.env = wireHeaders (headerBlock w.mem rh) n flags.toNat ++ piecesBytes ps ∧ rest w'.env = [] ∧
      accepted evs1 = wireHeaders (headerBlock w.mem rh) n flags.toNat ∧ received evs1 = r1.bytes ∧
      accepted evs2 = piecesBytes ps ∧ received evs2 = r.bytes ∧ Got cfg r resp.pHeaderParsingCallback.isSome evs2 w'.mem resp' := by
  obtain ⟨h', w1, evs1, resp1, w2, evs2, e1, e2, l1, l2, a1, k1, a2, b2, g2, _, got1, hsu, hB, hr, hlen⟩ :=
    ask hp hc hn hne ok1 hreq hflag hfit1 hfit' hP1 hgot hf1 hf3
  have hblk16 : 16 ≤ (headerBlock w.mem rh).length := by
    have h1 := hp.reqLen; have h2 := hp.reqRoom; have h3 := hp.reqLe
    unfold headerBlock; rw [hp.reqBuf]; simp only [List.length_take]; omega
  have hreq' := reqIs_wire hblk16 n flags.toNat hreq
  generalize hhd : wireHeaders (headerBlock w.mem rh) n flags.toNat = hd at *
  obtain ⟨s1, s2, s3, s4, s5⟩ := hsu
  have hc1 : resp1.getTime ≠ .null := by rw [s4]; exact hc
  have hP2 : Peer (hd ++ piecesBytes ps) r.bytes got rest send recv resp1 :=
    { hP with
      clock := by rw [s4]; exact hP.clock
      header := by rw [s3]; exact hP.header }
  have hps' : PiecesOk w2.mem rb ps := fun p hpm => ⟨(hps p hpm).1, by rw [hlen]; exact (hps p hpm).2⟩
  obtain ⟨q, s3', m3, evs3, e3, k3, _, a3, _, q3, l3⟩ := sendPieces_spec (cfg := cfg) (rb := rb) hp.hasSend hp.sendOk hc1 fuel ps w2 hps'
  have hd3 := sendPieces_all (cfg := cfg) (rb := rb) hp.hasSend hp.sendOk hP.accepts hc1 ps w2 hps' hf2
  have hlog : w2.log = w.log ++ (evs1 ++ evs2) := by rw [l2, l1]; simp
  have hacc : accepted (evs1 ++ evs2) = hd := by rw [accepted_append', a1, a2]; simp
  have k2 := (sendPieces_keeps (cfg := cfg) (sending_inv hP2 w.log) hp.hasSend fuel ps w2
    ⟨evs1 ++ evs2, hlog, g2.trans hacc.symm, fun h => absurd (List.append_right_eq_self.mp (h.symm.trans hacc)) hps0⟩).1
  rw [e3] at hd3 k2
  dsimp only at hd3 k2 q3 l3
  subst hd3
  obtain ⟨evs', hl', g3, g4⟩ := k2
  obtain rfl : (evs1 ++ evs2) ++ evs3 = evs' := List.append_cancel_left (by rw [← hl', hlog]; simp)
  have hall : accepted ((evs1 ++ evs2) ++ evs3) = hd ++ piecesBytes ps := by rw [accepted_append', hacc, a3 rfl]
  have hr3 : RecvPre true httpParser cfg T recv resp1 h' b rb m3 := { hr with
    room := by rw [l3]; exact hr.room
    reqRoom := by rw [l3]; exact hr.reqRoom }
  have hB3 : headerBlock m3 h' = hd := by
    rw [← hB]; unfold headerBlock; rw [hr.reqBuf]; dsimp only; rw [q3]
  obtain ⟨resp', w', evs4, e4, hl4, c1, c2, c3, c4⟩ := C58_peer_receive (w := ⟨s3', m3, w2.log ++ evs3⟩) (r := r) (head := head) hr3 ok
    (by dsimp only; rw [hB3]; exact hreq') (by rw [s5]; exact hflag) (by rw [s2]; exact hfit) hP2 (g3.trans hall) (g4 hall) (by rw [s2]; exact hf3)
  obtain ⟨_, _, evs5, e5, hl5, hns, _, _⟩ := receive_no_send (w := ⟨s3', m3, w2.log ++ evs3⟩) hr3 fuel
  rw [e4] at e5; cases e5
  obtain rfl : evs4 = evs5 := List.append_cancel_left (hl4.symm.trans hl5)
  obtain ⟨_, x3, _, x4⟩ := sending_kinds k3
  obtain ⟨_, _, _, x1⟩ := sending_kinds k1
  have hcode : resp1.statusCode = 100 := got1.statusCode.trans h100
  unfold expectContinue
  simp only [M.bind_apply, e1, e2, if_true, hcode, and_self, e3, e4]
  refine ⟨resp', w', evs1 ++ evs2, evs3 ++ evs4, rfl, by rw [hl4, hlog]; simp, c3, c2, hacc, ?_, ?_, ?_, ?_⟩
  · rw [received_append, x1]; exact b2
  · rw [accepted_append', a3 rfl, (sends_nil hns).2, List.append_nil]
  · rw [received_append, x4]; exact c1
  · have c4' := c4
    rw [s3] at c4'
    exact { c4' with reported := by rw [reported_append, x3]; exact c4'.reported }

/-- **C107, the server refuses.** When the peer answers the headers with any other well-formed response, the program ends with that response, and nothing of
the body is ever sent. -/
theorem C107_refusal {w : World PLog σ} {head : Bool} {r : Response} {ps : List Piece}
    (hp : CallPre true httpParser cfg T send recv rh rb none 0 resp b w.mem) (hc : resp.getTime ≠ .null) (hn : n ≤ 2147483647) (hne : b ≠ rb)
    (ok : r.Ok head) (h100 : r.code ≠ 100) (hreq : ReqIs head (headerBlock w.mem rh)) (hflag : ¬ headersOnly resp.respOptionFlags)
    (hfit : r.bytes.length ≤ resp.bufferLen) (hfit' : (wireHeaders (headerBlock w.mem rh) n flags.toNat).length ≤ rh.bufferLen)
    (hP : Peer (wireHeaders (headerBlock w.mem rh) n flags.toNat) r.bytes got rest send recv resp) (hgot : got w.env = [])
    {fuel : Nat} (hf1 : rh.bufferLen ≤ fuel) (hf3 : resp.bufferLen < fuel) :
    ∃ resp' w' evs, expectContinue httpParser cfg fuel T rh n flags ps resp w = (.ok (.success, resp'), w') ∧
      w'.log = w.log ++ evs ∧ got w'.env = wireHeaders (headerBlock w.mem rh) n flags.toNat ∧ rest w'.env = [] ∧
      accepted evs = wireHeaders (headerBlock w.mem rh) n flags.toNat ∧ received evs = r.bytes ∧
      Got cfg r resp.pHeaderParsingCallback.isSome evs w'.mem resp' := by
  obtain ⟨h', w1, evs1, resp1, w2, evs2, e1, e2, l1, l2, a1, k1, a2, b2, g2, g3, got1, _⟩ :=
    ask hp hc hn hne ok hreq hflag hfit hfit' hP hgot hf1 hf3
  obtain ⟨_, x3, _, x4⟩ := sending_kinds k1
  have hcode : ¬ resp1.statusCode = 100 := fun h => h100 (got1.statusCode.symm.trans h)
  unfold expectContinue
  simp only [M.bind_apply, e1, e2, if_true, hcode, and_false, if_false, M.pure_apply]
  refine ⟨resp1, w2, evs1 ++ evs2, rfl, by rw [l2, l1]; simp, g2, g3, ?_, ?_, ?_⟩
  · rw [accepted_append', a1, a2]; simp
  · rw [received_append, x4]; exact b2
  · exact { got1 with reported := by rw [reported_append, x3]; exact got1.reported }

/-! ### Non-vacuity -/

/-- A peer with two answers: `a1` when it has got `q1`, `a2` when it has got `q2`. -/
def askSend (q1 a1 q2 a2 : Bytes) : PeerEnv → Bytes → Int × PeerEnv := fun s d =>
  (((min 7 d.length : Nat) : Int), s.1 + 1, s.2.1 ++ d.take 7,
    if s.2.1 ++ d.take 7 = q1 then a1 else if s.2.1 ++ d.take 7 = q2 then a2 else s.2.2)

theorem ask_ok {q1 a1 q2 a2 : Bytes} (q : Nat) (hq : q1 ≠ q2) :
    Peer q1 a1 (fun s => s.2.1) (fun s => s.2.2) (askSend q1 a1 q2 a2) peerRecv (peerResp q) ∧
    Peer q2 a2 (fun s => s.2.1) (fun s => s.2.2) (askSend q1 a1 q2 a2) peerRecv (peerResp q) := by
  have hp := peer_ok q1 a1 q
  have ha : ∀ (s : PeerEnv) (d : Bytes), d ≠ [] → 0 < (askSend q1 a1 q2 a2 s d).1 := fun s d hd => hp.accepts s d hd
  have ht : ∀ (s : PeerEnv) (d : Bytes), (askSend q1 a1 q2 a2 s d).2.2.1 = s.2.1 ++ d.take (askSend q1 a1 q2 a2 s d).1.toNat := fun s d => hp.takes s d
  refine ⟨{ hp with accepts := ha, takes := ht, answers := ?_ },
    { hp with accepts := ha, takes := ht, answers := ?_ }⟩
  · intro s d h; simp only [askSend] at h ⊢; rw [if_pos h]
  · intro s d h; simp only [askSend] at h ⊢; rw [if_neg (fun h1 => hq (h1.symm.trans h)), if_pos h]

/-- The 100 response, and headers and body of the request. -/
def exContinue : Response := ⟨.v11, 100, ascii "Continue", [], .none⟩
def askHd : Bytes := ascii "PUT / HTTP/1.1\r\nContent-Length: 12\r\n\r\n"

theorem exContinue_ok : exContinue.Ok false ∧ exContinue.bytes = ascii "HTTP/1.1 100 Continue\r\n\r\n" := by
  refine ⟨⟨by decide, by decide, by (intro f hf; cases hf), ?_⟩, by decide⟩
  exact ⟨.inr ⟨.inl (by decide), by decide, by (rintro ⟨f, h, _⟩; cases h)⟩, .inl rfl⟩

/-- All hypotheses of C107 hold for a PUT request with a body in three pieces, one of them in the response buffer, and a chunked response. -/
example (t : Nat) : ∃ resp' w' evs1 evs2,
    expectContinue httpParser exCfg 300
      ⟨some (askSend askHd exContinue.bytes (askHd ++ ascii "hello you...") exResponse.bytes), some peerRecv⟩ xReq 12 0 exPieces (peerResp 1)
      ⟨(t, [], []), xMem, []⟩ = (.ok (.success, resp'), w') ∧ w'.log = evs1 ++ evs2 ∧
    w'.env.2 = (askHd ++ ascii "hello you...", []) ∧ accepted evs1 = askHd ∧ received evs1 = exContinue.bytes ∧
    accepted evs2 = ascii "hello you..." ∧ received evs2 = exResponse.bytes ∧ Got exCfg exResponse true evs2 w'.mem resp' := by
  have hw : wireHeaders (headerBlock xMem xReq) 12 (UInt32.toNat 0) = askHd := by decide +kernel
  have hb : piecesBytes exPieces = ascii "hello you..." := by decide +kernel
  have hq : askHd ≠ askHd ++ ascii "hello you..." := by decide +kernel
  have hpr : CallPre true httpParser exCfg
      ⟨some (askSend askHd exContinue.bytes (askHd ++ ascii "hello you...") exResponse.bytes), some peerRecv⟩
      (askSend askHd exContinue.bytes (askHd ++ ascii "hello you...") exResponse.bytes) peerRecv xReq 0 none 0 (peerResp 1) 1 xMem :=
    { peerCallPre askHd exContinue.bytes 1 (.inr rfl) with
      hasSend := rfl
      hasRecv := rfl
      sendOk := peerSend_ok askHd exContinue.bytes
      bodyNone := fun _ => rfl
      bodyRoom := by intro bb h; cases h
      bodyMax := by decide }
  obtain ⟨resp', w', evs1, evs2, e, hl, h1, h2, h3, h4, h5, h6, h7⟩ := C107_consent (w := (⟨(t, [], []), xMem, []⟩ : World PLog PeerEnv))
    (n := 12) (ps := exPieces) (flags := 0) (fuel := 300) (r1 := exContinue) (r := exResponse) (head := false) hpr (by simp [peerResp]) (by decide) (by decide)
    (by
      intro p hp
      simp only [exPieces, List.mem_cons, List.not_mem_nil, or_false] at hp
      rcases hp with rfl | rfl | rfl
      · exact ⟨by decide, show (ascii "hello").length ≤ (xMem 2).length by decide +kernel⟩
      · exact ⟨by decide, show (ascii " you").length ≤ (xMem 1).length by decide +kernel⟩
      · exact ⟨by decide, show (ascii "...").length ≤ (xMem 2).length by decide +kernel⟩)
    (by rw [hb]; decide) exContinue_ok.1 rfl exResponse_ok (show ¬ ascii "HEAD" <+: headerBlock xMem xReq by decide +kernel)
    (show ¬ ((0 : UInt32).toNat % 2 = 1) by decide) (show exContinue.bytes.length ≤ 200 by decide +kernel)
    (show exResponse.bytes.length ≤ 200 by decide +kernel)
    (show (wireHeaders (headerBlock xMem xReq) 12 (UInt32.toNat 0)).length ≤ 60 by decide +kernel)
    (by dsimp only; rw [hw]; exact (ask_ok 1 hq).1) (by dsimp only; rw [hw, hb]; exact (ask_ok 1 hq).2) rfl (by decide) (by decide +kernel)
    (show 200 < 300 by decide)
  dsimp only at h1 h3
  rw [hw] at h1 h3
  rw [hb] at h1 h5
  exact ⟨resp', w', evs1, evs2, e, by simpa using hl, Prod.ext h1 h2, h3, h4, h5, h6, h7⟩

/-- The same request to a server that answers the headers at once with another response: the body is not sent. -/
example (t : Nat) : ∃ resp' w' evs,
    expectContinue httpParser exCfg 300 (peerT askHd exResponse.bytes) xReq 12 0 exPieces (peerResp 1) ⟨(t, [], []), xMem, []⟩ =
      (.ok (.success, resp'), w') ∧ w'.log = evs ∧ w'.env.2 = (askHd, []) ∧ accepted evs = askHd ∧ resp'.statusCode = 206 := by
  have hw : wireHeaders (headerBlock xMem xReq) 12 (UInt32.toNat 0) = askHd := by decide +kernel
  have hpr : CallPre true httpParser exCfg (peerT askHd exResponse.bytes) (peerSend askHd exResponse.bytes) peerRecv xReq 0 none 0 (peerResp 1) 1 xMem :=
    { peerCallPre askHd exResponse.bytes 1 (.inr rfl) with
      bodyNone := fun _ => rfl
      bodyRoom := by intro bb h; cases h
      bodyMax := by decide }
  obtain ⟨resp', w', evs, e, hl, h1, h2, h3, _, h5⟩ := C107_refusal (w := (⟨(t, [], []), xMem, []⟩ : World PLog PeerEnv))
    (n := 12) (ps := exPieces) (flags := 0) (fuel := 300) (r := exResponse) (head := false) hpr (by simp [peerResp]) (by decide) (by decide)
    exResponse_ok (by decide) (show ¬ ascii "HEAD" <+: headerBlock xMem xReq by decide +kernel)
    (show ¬ ((0 : UInt32).toNat % 2 = 1) by decide) (show exResponse.bytes.length ≤ 200 by decide +kernel)
    (show (wireHeaders (headerBlock xMem xReq) 12 (UInt32.toNat 0)).length ≤ 60 by decide +kernel)
    (by dsimp only; rw [hw]; exact peer_ok _ _ 1) rfl (by decide) (show 200 < 300 by decide)
  dsimp only at h1 h3
  rw [hw] at h1 h3
  exact ⟨resp', w', evs, e, by simpa using hl, Prod.ext h1 h2, h3, h5.statusCode⟩

end CoreHttp.Props

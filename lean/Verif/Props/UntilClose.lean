import Verif.Props.Incomplete

/-!
# Property C69: bodies that end with the connection

A response without Content-Length that is not chunked has a body that ends with the connection (RFC 9112, 6.3). The client never learns that the
connection has ended: the transport interface has no such result, and the parser is not told about the end of the data. `Response.UntilClose`:
Verif/Spec/Wire.lean. The parser is the reference parser.
-/

namespace CoreHttp.Props
open CoreHttp Spec Ref Machine
variable {σ : Type} {cfg : Cfg} {T : Transport σ} {send : σ → Bytes → Int × σ} {recv : σ → Nat → Int × Bytes × σ}
  {resp : Resp σ} {rh : ReqHeaders} {b rb : Nat} {body : Option Nat} {n : Nat} {flags : UInt32} {request : Bytes} {got rest : σ → Bytes}

/-- What the application gets of a response with the status line and header section of `r`, when `got` has been received: everything after the header
section is body. -/
structure GotOpen (cfg : Cfg) (r : Response) (cb : Bool) (evs : List (Ev PLog)) (got : Bytes) (m : Mem) (resp' : Resp σ) : Prop where
  statusCode : resp'.statusCode = 0 ∨ resp'.statusCode = r.code
  reported : reported evs <+: r.fields.map fun f => (f.name, f.value, r.code)
  noCallback : cb = false → Spec.reported evs = []
  headerCount : resp'.headerCount ≤ r.fields.length
  body : bodyBytes m resp' = got.drop r.head.length
  bodyLen : resp'.bodyLen = got.length - r.head.length
  head : r.head <+: got → GotFields cfg r cb evs got m resp' ∧ resp'.headerCount = r.fields.length ∧
    (cb = true → Spec.reported evs = r.fields.map fun f => (f.name, f.value, r.code))

/-- **C69, receiving.** For every response with a body that ends with the connection, of any size, and every history in which the network delivers it (in
pieces of any size, with any delays): the call never returns HTTPSuccess. It returns HTTPInsufficientMemory with the buffer full; or, after the retry
timeout, HTTPPartialResponse (HTTPNoResponse if nothing was received). The header section is as sent, and the body is all that was received after it. -/
theorem C69_receive {w : World PLog σ} {r : Response} {data : Bytes} (hp : RecvPre true httpParser cfg T recv resp rh b rb w.mem)
    (ok : r.UntilClose) (hreq : ReqIs false (headerBlock w.mem rh)) (hflag : ¬ headersOnly resp.respOptionFlags) (fuel : Nat) :
    ∃ res w' t0 evs, HTTPClient_ReceiveAndParseHttpResponse httpParser cfg fuel (some T) (some resp) (some rh) w = (res, w') ∧
      w'.log = w.log ++ .time t0 :: evs ∧
      (Delivers (r.head ++ data) evs → ∀ st resp', res = .ok (st, resp') → st ≠ .success ∧
        GotOpen cfg r resp.pHeaderParsingCallback.isSome evs (received evs) w'.mem resp' ∧
        ((st = .insufficientMemory ∧ (received evs).length = resp.bufferLen) ∨
          ((received evs).length < resp.bufferLen ∧ st = (if received evs = [] then .noResponse else .partialResponse) ∧
            ∃ pre off len t post, evs = pre ++ .recv off len 0 [] :: .time t :: post ∧ recvs post = [] ∧
              (resp.getTime.isZero = true ∨ cfg.recvTimeoutMs ≤ t - lastRecv t0 pre)))) := by
  obtain ⟨res, w', t0, evs, e, hl, h59⟩ := C59_no_early_stop hp fuel
  refine ⟨res, w', t0, evs, e, hl, ?_⟩
  rintro hdel st resp' rfl
  have hpre := delivers_prefix evs hdel
  have hlen : (received evs).length ≤ resp.bufferLen := by
    obtain ⟨r1, w1, t1, tr1, e1, l1, hev, _⟩ := receive_spec hp fuel
    rw [e] at e1; cases e1
    have h1 : Ev.time t0 :: evs = Ev.time t1 :: tr1 := List.append_cancel_left (hl.symm.trans l1)
    have := received_le hev
    rw [← h1] at this
    exact this
  have hne : st ≠ .networkError := by
    rintro rfl
    obtain ⟨_, _, evs1, e1, l1, _, h1⟩ := C31_receive_error hp fuel
    rw [e] at e1; cases e1
    obtain rfl : Ev.time t0 :: evs = evs1 := List.append_cancel_left (hl.symm.trans l1)
    obtain ⟨pre, off, len, ret, data, h2, h3⟩ := h1 _ rfl
    rcases split_cons h2 with ⟨_, h4, _⟩ | ⟨pre', rfl, h4⟩
    · cases h4
    · have := (hdel _ _ _ _ _ _ h4).1
      omega
  obtain ⟨v, a, o, q1, q2, p1, p2, p3, p4, p5, p6⟩ := eof_run ok hpre
  obtain ⟨_, f6, k1, k2, k3, k4, k5, k6, k7⟩ := returned_live hp hreq hflag e hl hne q1
  have hvn : v.state = .none ↔ received evs = [] := by
    constructor
    · intro h; exact Classical.byContradiction fun h' => p3 h' h
    · intro h
      rw [h] at q1
      have : (View.empty, St.live A.start none) = (v, .live a o) := q1
      cases this; rfl
  have hlt : r.statedLength < 18446744073709551615 := by
    unfold Response.statedLength; rw [ok.noLength]; decide
  have hgot : GotOpen cfg r resp.pHeaderParsingCallback.isSome evs (received evs) w'.mem resp' := by
    refine ⟨by rw [k1]; exact p1, ?_, k4, ?_, by rw [k5, p5], by rw [k6, p5, List.length_drop], fun hhd => ⟨k7 r (p2 hhd) p6 hlt hhd, ?_, ?_⟩⟩
    · cases hcb : resp.pHeaderParsingCallback with
      | none => rw [k4 (by rw [hcb]; rfl)]; exact List.nil_prefix
      | some c => rw [k3 (by rw [hcb]; rfl)]; exact p4
    · rw [k2]
      have := p4.length_le
      simpa using this
    · rw [k2]
      have h1 := (p2 hhd).headers.length_le
      have h2 := p4.length_le
      simp at h1 h2
      omega
    · intro hcb
      rw [k3 hcb]
      exact p4.eq_of_length_le (p2 hhd).headers.length_le
  have key : (st = .insufficientMemory ∧ (received evs).length = resp.bufferLen) ∨
      ((received evs).length < resp.bufferLen ∧ st = (if received evs = [] then .noResponse else .partialResponse)) := by
    by_cases hfull : (received evs).length = resp.bufferLen
    · left
      refine ⟨?_, hfull⟩
      have hpos := hp.pos
      have hnn : v.state ≠ .none := fun h => by rw [hvn.mp h] at hfull; simp at hfull; omega
      rw [f6, decide_eq_true hfull]
      rcases hm : v.state with _ | _ | _
      · exact absurd hm hnn
      · rfl
      · exact absurd hm q2
    · right
      refine ⟨by omega, ?_⟩
      rw [f6, decide_eq_false hfull]
      rcases hm : v.state with _ | _ | _
      · rw [if_pos (hvn.mp hm)]; rfl
      · rw [if_neg fun h => by rw [hvn.mpr h] at hm; cases hm]; rfl
      · exact absurd hm q2
  refine ⟨?_, hgot, ?_⟩
  · rcases key with ⟨rfl, _⟩ | ⟨_, rfl⟩
    · simp
    · split <;> simp
  · rcases key with h | ⟨h1, h2⟩
    · exact .inl h
    · refine .inr ⟨h1, h2, h59 st resp' rfl ?_⟩
      rw [h2]
      split
      · exact .inr ⟨rfl, by omega⟩
      · exact .inl rfl

theorem received_of_recvs (l : List (Ev PLog)) : recvs l = [] → received l = [] := by
  induction l with
  | nil => intro _; rfl
  | cons x l ih => intro h; cases x <;> first | exact ih h | cases h

/-- **C69, with a cooperative peer, receiving.** The peer delivers the header section and `data`, and closes. If all of it is smaller than the buffer, a call
that returns (C34 says when) returns HTTPPartialResponse with exactly `data` as body; otherwise it returns HTTPInsufficientMemory with as much
as fits. -/
theorem C69_peer_receive {w : World PLog σ} {r : Response} {data : Bytes} (hp : RecvPre true httpParser cfg T recv resp rh b rb w.mem)
    (ok : r.UntilClose) (hreq : ReqIs false (headerBlock w.mem rh)) (hflag : ¬ headersOnly resp.respOptionFlags)
    (hP : Peer request (r.head ++ data) got rest send recv resp) (hgot : got w.env = request) (hrest : rest w.env = r.head ++ data) (fuel : Nat) :
    ∃ res w' evs, HTTPClient_ReceiveAndParseHttpResponse httpParser cfg fuel (some T) (some resp) (some rh) w = (res, w') ∧
      w'.log = w.log ++ evs ∧ got w'.env = request ∧ received evs ++ rest w'.env = r.head ++ data ∧ (∀ f, res ≠ .fault f) ∧
      ∀ st resp', res = .ok (st, resp') →
        st = (if (r.head ++ data).length < resp.bufferLen then .partialResponse else .insufficientMemory) ∧
        received evs = (r.head ++ data).take resp.bufferLen ∧
        GotOpen cfg r resp.pHeaderParsingCallback.isSome evs (received evs) w'.mem resp' := by
  obtain ⟨res, w', t0, evs, e, hl, h69⟩ := C69_receive (data := data) hp ok hreq hflag fuel
  have hk := (receive_keeps httpParser cfg hp.hasRecv (receiving_inv hP w.log) rh fuel w
    ⟨[], by simp, hgot, by simpa [received] using hrest, by intro pre off len ret data post h; cases pre <;> cases h⟩).1
  rw [e] at hk
  obtain ⟨evs', hl', g1, g2, g3⟩ := hk
  obtain rfl : Ev.time t0 :: evs = evs' := List.append_cancel_left (hl.symm.trans hl')
  have hnf : ∀ f, res ≠ .fault f := by
    obtain ⟨_, _, _, e1, _, _, h1, _⟩ := receive_no_send hp fuel
    rw [e] at e1; cases e1
    exact h1
  refine ⟨res, w', _, e, hl, g1, g2, hnf, ?_⟩
  rintro st resp' rfl
  have hdel : Delivers (r.head ++ data) evs := by
    intro pre off len ret data post he
    have := g3 (.time t0 :: pre) off len ret data post (by rw [he]; rfl)
    exact ⟨this.1, this.2.1⟩
  obtain ⟨_, hg, h⟩ := h69 hdel _ _ rfl
  have hhl : 0 < r.head.length := by
    unfold Response.head section_ crlf
    simp only [List.length_append, List.length_cons]
    omega
  have hpre : received (Ev.time t0 :: evs) <+: r.head ++ data := ⟨_, g2⟩
  have hgo : GotOpen cfg r resp.pHeaderParsingCallback.isSome (Ev.time t0 :: evs) (received (Ev.time t0 :: evs)) w'.mem resp' :=
    ⟨hg.1, hg.2, hg.3, hg.4, hg.5, hg.6, fun h => ⟨{ (hg.7 h).1 with reported := (hg.7 h).1.reported }, (hg.7 h).2.1, (hg.7 h).2.2⟩⟩
  rcases h with ⟨rfl, h1⟩ | ⟨h1, rfl, pre, off, len, t, post, h2, h3, _⟩
  · have h2 := hpre.length_le
    have h1' : (received (Ev.time t0 :: evs)).length = resp.bufferLen := h1
    refine ⟨by rw [if_neg (by omega)], ?_, hgo⟩
    rw [List.prefix_iff_eq_take.mp hpre, h1']
  · have hall : received (Ev.time t0 :: evs) = r.head ++ data := by
      have h4 := g3 (.time t0 :: pre) off len 0 [] _ (by rw [h2]; rfl)
      have h5 : received (Ev.time t0 :: evs) = received (Ev.time t0 :: pre) := by
        rw [h2]
        have h6 : received post = [] := received_of_recvs post h3
        rw [show Ev.time t0 :: (pre ++ .recv off len 0 [] :: .time t :: post) = (.time t0 :: pre) ++ ([.recv off len 0 [], .time t] ++ post) by simp,
          received_append, received_append, h6]
        simp [received]
      rcases h4.2.2 rfl with h6 | h6
      · obtain ⟨_, _, evs1, e1, l1, h29, _⟩ := C29_receive_contiguous hp fuel
        rw [e] at e1; cases e1
        obtain rfl : Ev.time t0 :: evs = evs1 := List.append_cancel_left (hl.symm.trans l1)
        have := (h29 (.time t0 :: pre) off len 0 [] _ (by rw [h2]; rfl)).2.2.1
        omega
      · rw [h5]; exact h6
    have h1' : (received (Ev.time t0 :: evs)).length < resp.bufferLen := h1
    rw [hall] at h1'
    have hne : received evs ≠ [] := by
      intro h
      have : received (Ev.time t0 :: evs) = [] := h
      rw [hall] at this
      have := congrArg List.length this
      simp at this
      rw [this.1] at hhl
      simp at hhl
    refine ⟨by rw [if_neg hne, if_pos h1'], ?_, hgo⟩
    rw [List.take_of_length_le (Nat.le_of_lt h1')]; exact hall

/-- **C69, with a cooperative peer.** For every request that fits in its buffer and is not a HEAD request, and every peer that accepts it, answers it with
a response whose body ends with the connection, and closes: a call of HTTPClient_Send that returns (`hret`, which C61 proves for clocks that
advance and without a clock) has sent the request and never returns HTTPSuccess: it returns HTTPPartialResponse with exactly the body sent, if all is
smaller than the buffer, and HTTPInsufficientMemory with as much as fits otherwise. -/
theorem C69_exchange {w : World PLog σ} {r : Response} {data : Bytes}
    (hp : CallPre true httpParser cfg T send recv rh rb body n resp b w.mem)
    (ok : r.UntilClose) (hreq : ReqIs false (headerBlock w.mem rh)) (hflag : ¬ headersOnly resp.respOptionFlags)
    (hfit' : (wireHeaders (headerBlock w.mem rh) n flags.toNat).length ≤ rh.bufferLen)
    (hP : Peer (wireRequest w.mem rh body n flags) (r.head ++ data) got rest send recv resp) (hgot : got w.env = [])
    {fuel : Nat} (hf1 : rh.bufferLen ≤ fuel) (hf2 : n ≤ fuel)
    (hret : (HTTPClient_Send httpParser cfg fuel (some T) (some rh) body n (some resp) flags w).1 ≠ .more) :
    ∃ rh' resp' w' evs, HTTPClient_Send httpParser cfg fuel (some T) (some rh) body n (some resp) flags w =
        (.ok (if (r.head ++ data).length < resp.bufferLen then .partialResponse else .insufficientMemory, some rh', some resp'), w') ∧
      w'.log = w.log ++ evs ∧ got w'.env = wireRequest w.mem rh body n flags ∧
      accepted evs = wireRequest w.mem rh body n flags ∧ received evs = (r.head ++ data).take resp.bufferLen ∧
      rest w'.env = (r.head ++ data).drop resp.bufferLen ∧
      GotOpen cfg r resp.pHeaderParsingCallback.isSome evs (received evs) w'.mem resp' := by
  have hblk : 16 ≤ (headerBlock w.mem rh).length := by
    have h1 := hp.reqLen; have h2 := hp.reqRoom; have h3 := hp.reqLe
    unfold headerBlock; rw [hp.reqBuf]; simp only [List.length_take]; omega
  have hP' : Peer (wireRequest w.mem rh body n flags) (r.head ++ data) got rest send recv (withClock resp) :=
    { hP with
      clock := by
        intro f hf
        refine hP.clock f ?_
        unfold withClock at hf
        cases hc : resp.getTime <;> rw [hc] at hf <;> first | exact hf | cases hf
      header := hP.header }
  have hwr : wireRequest w.mem rh body n flags ≠ [] := by
    intro h
    have h1 := congrArg List.length (wireHeaders_take hblk n flags.toNat)
    have h2 : wireHeaders (headerBlock w.mem rh) n flags.toNat = [] := by
      unfold wireRequest at h; exact (List.append_eq_nil_iff.mp h).1
    rw [h2] at h1
    simp at h1
    omega
  obtain ⟨h', hall⟩ := sendRequest_all (flags := flags) (withClock_ne resp) hp hfit' hP.accepts hf1 hf2
  have hk := (sendRequest_keeps (sending_inv hP' w.log) cfg hp.hasSend rh body n flags fuel w
    ⟨[], by simp, by simpa [accepted] using hgot, fun h => absurd h.symm hwr⟩).1
  rw [send_eq hp fuel] at hret ⊢
  simp only [M.bind_apply] at hret ⊢
  rcases sendRequest_spec (flags := flags) (withClock_ne resp) hp fuel with ⟨h1, h2⟩ | ⟨h1, q, s', m', rh', evs1, e, hfr, hb, hbl, hle, hB, hlen, h2⟩
  · omega
  rw [e] at hall hk
  dsimp only at hall
  rcases h2 with ⟨rfl, hph⟩ | ⟨rfl | rfl, _⟩
  · rw [e] at hret ⊢
    simp only [if_true, M.bind_apply] at hret ⊢
    obtain ⟨evs1', hl1, k1, k2⟩ := hk
    obtain rfl : evs1 = evs1' := List.append_cancel_left hl1
    obtain ⟨s1, s2, _, s4⟩ := sending_kinds hph.kinds
    have hacc := hph.all_ rfl
    have hr := recvPre_of hp hfr hb hbl hle hB hlen
    obtain ⟨res, w', evs, e2, hl2, a1, a2, a3, a4⟩ := C69_peer_receive (w := ⟨s', m', w.log ++ evs1⟩) (r := r) (data := data) hr ok
      (by dsimp only; rw [hB]; exact reqIs_wire hblk _ _ hreq) hflag hP' (k1.trans hacc) (k2 hacc) fuel
    obtain ⟨_, _, evs', e', hl', hns, _, _⟩ := receive_no_send (w := ⟨s', m', w.log ++ evs1⟩) hr fuel
    rw [e2] at e'; cases e'
    obtain rfl : evs = evs' := List.append_cancel_left (hl2.symm.trans hl')
    rw [e2] at hret ⊢
    rcases res with ⟨st, resp'⟩ | f | _
    · obtain ⟨b1, b2, b3⟩ := a4 st resp' rfl
      have hrec : received (evs1 ++ evs) = received evs := by rw [received_append, s4]; rfl
      have hrep : reported (evs1 ++ evs) = reported evs := by rw [reported_append, s2]; rfl
      refine ⟨rh', resp', w', evs1 ++ evs, by rw [b1]; rfl, by rw [hl2]; simp, a1, ?_, by rw [hrec]; exact b2, ?_, ?_⟩
      · rw [accepted_append', (sends_nil hns).2, List.append_nil]; exact hacc
      · rw [b2] at a2
        exact List.append_cancel_left (a2.trans (List.take_append_drop (withClock resp).bufferLen (r.head ++ data)).symm)
      · rw [hrec]
        exact ⟨b3.1, by rw [hrep]; exact b3.2, by rw [hrep]; exact b3.3, b3.4, b3.5, b3.6, fun h => ⟨{ (b3.7 h).1 with
          reported := by rw [hrep]; exact (b3.7 h).1.reported }, (b3.7 h).2.1, by rw [hrep]; exact (b3.7 h).2.2⟩⟩
    · exact absurd rfl (a3 f)
    · exact absurd rfl hret
  · cases hall
  · cases hall

/-! ### Non-vacuity -/

/-- A response whose body ends with the connection. -/
def exOpen : Response := ⟨.v11, 200, ascii "OK", [⟨ascii "Server", ascii " ", ascii "x y"⟩, ⟨ascii "Connection", ascii " ", ascii "close"⟩], .none⟩

theorem exOpen_ok : exOpen.UntilClose := by
  refine ⟨by decide, by decide +kernel, ?_, by unfold Response.bodiless; decide, by decide +kernel, ?_⟩
  all_goals
    intro f hf
    simp only [exOpen, List.mem_cons, List.not_mem_nil, or_false] at hf
  · rcases hf with rfl | rfl <;> exact fieldOk_of (by decide +kernel)
  · rcases hf with rfl | rfl <;> decide +kernel

/-- All hypotheses of C69 hold for a PUT request without a clock function: all of the body arrives, and the call returns HTTPPartialResponse. -/
example (q : Nat) (hq : q = 0 ∨ q = 1) (t : Nat) : ∃ rh' resp' w' evs,
    HTTPClient_Send httpParser exCfg 300 (some (peerT (wireRequest xMem xReq (some 2) 5 0) (exOpen.head ++ ascii "body"))) (some xReq) (some 2) 5
      (some { peerResp q with getTime := .null }) 0 ⟨(t, [], []), xMem, []⟩ = (.ok (.partialResponse, some rh', some resp'), w') ∧ w'.log = evs ∧
    w'.env.2 = (wireRequest xMem xReq (some 2) 5 0, []) ∧ resp'.statusCode = 200 ∧ bodyBytes w'.mem resp' = ascii "body" := by
  have hp : CallPre true httpParser exCfg (peerT (wireRequest xMem xReq (some 2) 5 0) (exOpen.head ++ ascii "body"))
      (peerSend (wireRequest xMem xReq (some 2) 5 0) (exOpen.head ++ ascii "body")) peerRecv xReq 0 (some 2) 5 { peerResp q with getTime := .null } q
      xMem := 
    { peerCallPre _ _ q hq with
      buf := rfl
      pos := (peerCallPre [] [] q hq).pos
      room := (peerCallPre [] [] q hq).room
      size := (peerCallPre [] [] q hq).size }
  have hP : Peer (wireRequest xMem xReq (some 2) 5 0) (exOpen.head ++ ascii "body") (fun s => s.2.1) (fun s => s.2.2)
      (peerSend (wireRequest xMem xReq (some 2) 5 0) (exOpen.head ++ ascii "body")) peerRecv { peerResp q with getTime := .null } :=
    have h := peer_ok (wireRequest xMem xReq (some 2) 5 0) (exOpen.head ++ ascii "body") q
    ⟨h.accepts, h.takes, h.answers, h.delivers, h.progress, h.keeps, fun f hf => (by cases hf), h.header⟩
  obtain ⟨rh', resp', w', evs, e, hl, h1, _, h3, h4, h5⟩ := C69_exchange (w := (⟨(t, [], []), xMem, []⟩ : World PLog PeerEnv)) (flags := 0) (fuel := 300)
    hp exOpen_ok (show ¬ ascii "HEAD" <+: headerBlock xMem xReq by decide +kernel) (show ¬ ((0 : UInt32).toNat % 2 = 1) by decide)
    (show (wireHeaders (headerBlock xMem xReq) 5 (UInt32.toNat 0)).length ≤ 60 by decide +kernel) hP rfl (by decide) (by decide)
    (C61_terminates_noclock hp (.inl rfl) (by decide) (by decide) (show 200 + 1 ≤ 300 by decide))
  have hst : (if (exOpen.head ++ ascii "body").length < 200 then Status.partialResponse else Status.insufficientMemory) = .partialResponse := if_pos
    (show (exOpen.head ++ ascii "body").length < 200 by decide +kernel)
  have h4 : w'.env.2.2 = (exOpen.head ++ ascii "body").drop 200 := h4
  have h3 : received evs = (exOpen.head ++ ascii "body").take 200 := h3
  rw [List.take_of_length_le (show (exOpen.head ++ ascii "body").length ≤ 200 by decide +kernel)] at h3
  rw [h3] at h5
  refine ⟨rh', resp', w', evs, e.trans (congrArg (fun st => (Run.ok (st, some rh', some resp'), w')) hst), by simpa using hl, Prod.ext h1 (by rw [h4]; decide +kernel), (h5.head (List.prefix_append _ _)).1.statusCode, ?_⟩
  rw [h5.body, List.drop_left]

end CoreHttp.Props

import Verif.Props.HeadersOnly
import Verif.Props.UntilClose

/-!
# Property C72: a transport error in the middle of a response

The network delivers a beginning of a response and then a receive call fails; many transports report a closed connection that way. The parser is the
reference parser.
-/

namespace CoreHttp.Props
open CoreHttp Spec Ref Machine
variable {σ : Type} {cfg : Cfg} {T : Transport σ} {send : σ → Bytes → Int × σ} {recv : σ → Nat → Int × Bytes × σ}
  {resp : Resp σ} {rh : ReqHeaders} {b rb : Nat} {body : Option Nat} {n : Nat} {flags : UInt32}

/-- What is known about a call that returned HTTPNetworkError. -/
theorem error_fed {w w' : World PLog σ} {t0 : UInt32} {evs : List (Ev PLog)} {resp' : Resp σ} {fuel : Nat}
    (hp : RecvPre true httpParser cfg T recv resp rh b rb w.mem)
    (e : HTTPClient_ReceiveAndParseHttpResponse httpParser cfg fuel (some T) (some resp) (some rh) w = (.ok (.networkError, resp'), w'))
    (hl : w'.log = w.log ++ .time t0 :: evs) {v : View} {x : St A}
    (hv : run (headersAnswer resp.respOptionFlags (startsHead w.mem rb)) 0 (View.empty, .live .start none) (received evs) = (v, x)) :
    view (obsOf (.time t0 :: evs)) = v ∧ (∃ a o, x = .live a o) ∧
    ((resp' = resp ∧ obsOf (.time t0 :: evs) = []) ∨ (resp'.respFlags = connFlags v.connClose v.keepAlive ∧
      resp'.headerCount = v.headers.length ∧ resp'.statusCode = v.statusCode ∧
      (¬ headersOnly resp.respOptionFlags → bodyBytes w'.mem resp' = v.body ∧ resp'.bodyLen = v.body.length) ∧
      (headersOnly resp.respOptionFlags → bodyBytes w'.mem resp' = [] ∧ resp'.bodyLen = 0))) ∧
    FedOk httpParser (policy resp.respOptionFlags (startsHead w.mem rb)) (.time t0 :: evs) := by
  obtain ⟨r, w1, t1, tr, e1, hl1, hev, hfr, h⟩ := receive_spec hp fuel
  rw [e] at e1
  cases e1
  obtain ⟨ht, hev'⟩ := List.cons.inj (List.append_cancel_left (hl.symm.trans hl1))
  cases ht; cases hev'
  rcases h with ⟨h, _⟩ | ⟨lst, total, h, st, resp', hr, h1, h2, h3⟩
  · cases h
  cases hr
  have hfl : (calls (Ev.time t0 :: evs)).flatten = received evs := by rw [calls_flatten, h2.parsedAll]; rfl
  obtain ⟨f1, f2⟩ := h2.fed
  have hlst : lst = .networkError := by
    rcases h3 with ⟨_, h3, _⟩ | ⟨_, _, h3⟩ | ⟨_, _, _, h3⟩
    · cases h3
    · exfalso
      revert h3
      generalize decide (total = h.resp.bufferLen) = x
      generalize decide (h.resp.respOptionFlags &&& DO_NOT_PARSE_BODY_FLAG ≠ 0) = y
      generalize h.ctx.state = z
      revert x y z
      intro x y z
      cases x <;> cases y <;> cases z <;> intro h <;> cases h
    · exact h3.symm
  have hok : (feedAll httpParser (policy resp.respOptionFlags (startsHead w.mem rb)) (calls (.time t0 :: evs))).2.2.2 = .ok := by
    rcases f2 with ⟨_, f2⟩ | ⟨f2, _⟩
    · exact f2
    · rw [hlst] at f2; exact absurd f2.symm (processLlhttpError_network _)
  have hfo : FedOk httpParser (policy resp.respOptionFlags (startsHead w.mem rb)) (.time t0 :: evs) := ⟨h2.parsedAll, f1, hok⟩
  rw [policy_eq] at f1 hok
  have hfv := feed_view http_machine_ok (headersAnswer resp.respOptionFlags (startsHead w.mem rb)) (calls (.time t0 :: evs))
  rw [show feedAll http.toParser = feedAll httpParser from rfl, hfl, ← f1,
    show absRun http (headersAnswer resp.respOptionFlags (startsHead w.mem rb)) 0 (View.empty, .live http.init none) (received evs) = (v, x) from hv] at hfv
  rcases hfv with ⟨v', a, o, g1, _, _, g2, _⟩ | ⟨v', er, g1, g3, _, g2⟩
  · obtain ⟨rfl, rfl⟩ := Prod.mk.inj g1
    refine ⟨g2, ⟨a, o, rfl⟩, ?_, hfo⟩
    rcases returned h2 h3 with ⟨_, _, q1, q2⟩ | ⟨ph, base, lo, ht, hp1, hp2, h4, h5⟩
    · exact .inl ⟨q1, q2⟩
    · right
      rw [if_neg (by rw [hlst]; decide)] at h4
      refine ⟨by rw [h4, ← g2]; exact ht.core.flags, by rw [h4, ← g2]; exact ht.core.hcount, by rw [h4, ← g2]; exact ht.core.code, fun hflag => ?_,
        fun hflag => ?_⟩
      · rw [h4, ← g2]
        unfold bodyBytes
        rw [ht.core.pbuf, hp.buf, ht.core.bodyPtr]
        rcases ht.core.body with ⟨q1, q2, q3⟩ | ⟨p, e, q1, q2, q3, q4⟩
        · rw [q1, q2, q3]; exact ⟨rfl, rfl⟩
        · rw [q1]
          refine ⟨q4, ?_⟩
          have := ht.core.lo_le
          have := ht.core.fits
          have := ht.core.room
          rw [← q4, slice_length (by omega)]
      have hsp := (ht.core.opted ((headersOnly_iff _).mpr hflag)).2
      rw [h4]
      constructor
      · unfold bodyBytes
        rw [ht.core.bodyPtr, hsp]
        cases h.resp.pBuffer <;> rfl
      · rcases ht.core.body with ⟨q1, q2, q3⟩ | ⟨p, e, q1, q2, q3, q4⟩
        · exact q3
        · rw [hsp] at q1; cases q1
  · rw [show (feedAll httpParser (answers (headersAnswer resp.respOptionFlags (startsHead w.mem rb))) (calls (.time t0 :: evs))).2.2.2 = er by rw [g2]] at hok
    exact absurd hok g3

/-- What such a call reports. -/
theorem error_live {w w' : World PLog σ} {t0 : UInt32} {evs : List (Ev PLog)} {resp' : Resp σ} {fuel : Nat}
    (hp : RecvPre true httpParser cfg T recv resp rh b rb w.mem)
    (e : HTTPClient_ReceiveAndParseHttpResponse httpParser cfg fuel (some T) (some resp) (some rh) w = (.ok (.networkError, resp'), w'))
    (hl : w'.log = w.log ++ .time t0 :: evs) {v : View} {x : St A}
    (hv : run (headersAnswer resp.respOptionFlags (startsHead w.mem rb)) 0 (View.empty, .live .start none) (received evs) = (v, x))
    (hres : ¬ (resp' = resp ∧ obsOf (.time t0 :: evs) = [])) :
    resp'.statusCode = v.statusCode ∧ resp'.headerCount = v.headers.length ∧
    (resp.pHeaderParsingCallback.isSome = true → reported evs = v.headers) ∧ (resp.pHeaderParsingCallback.isSome = false → reported evs = []) ∧
    (¬ headersOnly resp.respOptionFlags → bodyBytes w'.mem resp' = v.body ∧ resp'.bodyLen = v.body.length) ∧
    (headersOnly resp.respOptionFlags → bodyBytes w'.mem resp' = [] ∧ resp'.bodyLen = 0) ∧
    ∀ r : Response, HeadSeen r v → v.messages ≤ 1 → r.statedLength < 18446744073709551615 → r.head <+: received evs →
      GotFields cfg r resp.pHeaderParsingCallback.isSome evs (received evs) w'.mem resp' := by
  have hrt : received (.time t0 :: evs) = received evs := rfl
  have hrp : reported (.time t0 :: evs) = reported evs := rfl
  obtain ⟨g2, _, g3, _⟩ := error_fed hp e hl hv
  obtain ⟨f7, h39c, h39d, h40, fb⟩ := g3.resolve_left hres
  obtain ⟨_, _, evs1, e1, l1, h1⟩ := C39_headers_reported hp fuel
  rw [e] at e1; cases e1
  obtain rfl : Ev.time t0 :: evs = evs1 := List.append_cancel_left (hl.symm.trans l1)
  obtain ⟨h39a, h39b, _⟩ := h1 _ _ rfl
  obtain ⟨_, _, evs1, e1, l1, h1⟩ := C49_content_length_partial hp fuel
  rw [e] at e1; cases e1
  obtain rfl : Ev.time t0 :: evs = evs1 := List.append_cancel_left (hl.symm.trans l1)
  have h49 := h1 _ _ rfl
  obtain ⟨_, _, evs1, e1, l1, h1⟩ := C41_header_section_kept hp fuel
  rw [e] at e1; cases e1
  obtain rfl : Ev.time t0 :: evs = evs1 := List.append_cancel_left (hl.symm.trans l1)
  have h41 := h1 _ _ rfl
  rw [g2] at h39a h49 h41
  rw [hrp] at h39a h39b
  refine ⟨h39d, h39c, h39a rfl, fun h => h39b rfl (by simpa using h), h40, fb, ?_⟩
  rintro r ⟨s1, s2, s3, s4, s5, s6⟩ p6 hlt hhd
  have h49 := h49 (UInt64.ofNat r.statedLength) s3
  have hto : (UInt64.ofNat r.statedLength).toNat = r.statedLength := by
    rw [UInt64.toNat_ofNat']
    exact Nat.mod_eq_of_lt (Nat.lt_trans hlt (by decide))
  rw [hto] at h49
  have h41 := h41 p6 r.head.length s6
  have hb0 : ∀ a c, (bit (connFlags a c) 0 ↔ a = true) ∧ (bit (connFlags a c) 1 ↔ c = true) := by
    intro a c; unfold bit; cases a <;> cases c <;> exact ⟨by decide, by decide⟩
  refine ⟨h39d.trans s1, ?_, ?_, h49.1, fun h => h49.2.1 h (by omega), ?_, ?_, ?_, h41.2.2⟩
  · intro hcb; rw [h39a rfl hcb]; exact s2
  · rw [h39c]; have := s2.length_le; simpa using this
  · rw [f7, s4, (hb0 _ _).1]; exact any_conn r "close"
  · rw [f7, s5, (hb0 _ _).2]; exact any_conn r "keep-alive"
  · intro b' hb'
    rw [(receive_setUp hp e).1, hp.buf] at hb'
    cases hb'
    obtain ⟨t, ht⟩ := hhd
    rw [h41.2.1, hrt, ← ht, List.take_left]

/-- As long as the parser has not asked what to do about the body, the answer does not matter. -/
theorem pause_tree {hr : CbRet} {n : Nat} {c : UInt8} (t : MTree A) : ∀ (v : View) (o : Option SpanK) (v' : View) (a : A) (o' : Option SpanK),
    absTree .pause n c t v o = (v', .live a o') → absTree hr n c t v o = (v', .live a o') := by
  induction t with
  | done a => intro v o v' a' o' h; cases o <;> exact h
  | fail e => intro v o v' a' o' h; cases h
  | act x t ih =>
    intro v o v' a' o' h
    cases x <;> first | exact ih _ _ _ _ _ h | (cases o <;> exact ih _ _ _ _ _ h)
  | headers cl cc ka t1 t2 => intro v o v' a' o' h; cases h

theorem pause_agree {hr : CbRet} (p : Bytes) : ∀ (n : Nat) (v : View) (a : A) (o : Option SpanK) (v' : View) (a' : A) (o' : Option SpanK),
    run .pause n (v, .live a o) p = (v', .live a' o') → run hr n (v, .live a o) p = (v', .live a' o') := by
  induction p with
  | nil => intro n v a o v' a' o' h; exact h
  | cons c cs ih =>
    intro n v a o v' a' o' h
    rw [run_cons] at h ⊢
    rcases hx : absTree .pause n c (step a c) v o with ⟨v1, a1 | e1⟩
    · rename_i o1
      rw [hx] at h
      rw [pause_tree _ _ _ _ _ _ hx]
      exact ih _ _ _ _ _ _ _ h
    · rw [hx, run_dead] at h
      cases h

/-- **C72, receiving.** For every well-formed response of any size and every beginning of it that has been received (in pieces of any size, with any
delays) when the transport fails: either nothing was received and the response object is as it was passed, or everything reported is part of the response,
including all of the header section, when that has been received. The response was not complete. -/
theorem C72_receive {w : World PLog σ} {head : Bool} {r : Response} (hp : RecvPre true httpParser cfg T recv resp rh b rb w.mem)
    (ok : r.Ok head) (hreq : ReqIs head (headerBlock w.mem rh)) (fuel : Nat) :
    ∃ res w' evs, HTTPClient_ReceiveAndParseHttpResponse httpParser cfg fuel (some T) (some resp) (some rh) w = (res, w') ∧ w'.log = w.log ++ evs ∧
      ∀ resp', res = .ok (.networkError, resp') → received evs <+: r.bytes →
        received evs ≠ r.bytes ∧ (headersOnly resp.respOptionFlags → ¬ r.head <+: received evs) ∧
        ((received evs = [] ∧ resp' = resp) ∨ GotPart cfg r resp.pHeaderParsingCallback.isSome evs (received evs) w'.mem resp') := by
  obtain ⟨res, w', t0, evs, e, hl, _⟩ := C59_no_early_stop hp fuel
  refine ⟨res, w', _, e, hl, ?_⟩
  rintro resp' rfl hpre
  have hrt : received (.time t0 :: evs) = received evs := rfl
  have hrp : reported (.time t0 :: evs) = reported evs := rfl
  rw [hrt] at hpre ⊢
  have hflagHead : headersOnly resp.respOptionFlags → ¬ r.head <+: received evs := by
    rintro hflag ⟨q, hq⟩
    have hv := pause_run ok q
    rw [hq, ← answer_flag hflag (startsHead w.mem rb)] at hv
    obtain ⟨_, ⟨a, o, h⟩, _⟩ := error_fed hp e hl hv
    cases h
  -- the parser has found a part of the response
  have hmain : ∃ v a o, run (headersAnswer resp.respOptionFlags (startsHead w.mem rb)) 0 (View.empty, .live .start none) (received evs) = (v, .live a o) ∧
      run (answerTo head) 0 (View.empty, .live .start none) (received evs) = (v, .live a o) := by
    by_cases hflag : headersOnly resp.respOptionFlags
    · rw [answer_flag hflag]
      have hhd := hflagHead hflag
      have hph : received evs <+: r.head := by
        rcases List.prefix_or_prefix_of_prefix hpre (show r.head <+: r.bytes from ⟨_, rfl⟩) with h | h
        · exact h
        · exact absurd h hhd
      obtain ⟨v, a, o, q1, _⟩ := pause_prefix ok hph fun h => hhd (by rw [h]; exact List.prefix_refl _)
      exact ⟨v, a, o, q1, pause_agree _ _ _ _ _ _ _ _ q1⟩
    · rw [answer_of hp hreq hflag]
      rcases hx : run (answerTo head) 0 (View.empty, .live .start none) (received evs) with ⟨v, a | er⟩
      · exact ⟨v, _, _, rfl, rfl⟩
      · rw [← answer_of hp hreq hflag] at hx
        obtain ⟨_, ⟨a, o, h⟩, _⟩ := error_fed hp e hl hx
        cases h
  obtain ⟨v, a, o, q1, q2⟩ := hmain
  obtain ⟨p1, p2, p3, p4, p5, p6⟩ := part_run ok hpre
  rw [q2] at p1 p2 p3 p4 p5 p6
  dsimp only at p1 p2 p3 p4 p5 p6
  obtain ⟨g2, _, g3, g4⟩ := error_fed hp e hl q1
  have hall : received evs ≠ r.bytes := by
    intro hall
    by_cases hflag : headersOnly resp.respOptionFlags
    · exact hflagHead hflag (by rw [hall]; exact ⟨_, rfl⟩)
    have hc := fed_complete hp ok hreq hflag g4 hall
    obtain ⟨_, _, evs1, e1, l1, _, h1⟩ := C31_receive_error hp fuel
    rw [e] at e1; cases e1
    obtain rfl : Ev.time t0 :: evs = evs1 := List.append_cancel_left (hl.symm.trans l1)
    obtain ⟨pre, off, len, ret, data, h2, h3⟩ := h1 _ rfl
    obtain ⟨_, _, evs1, e1, l1, h51⟩ := C51_one_response_partial hp fuel
    rw [e] at e1; cases e1
    obtain rfl : Ev.time t0 :: evs = evs1 := List.append_cancel_left (hl.symm.trans l1)
    refine h51 _ _ _ _ _ _ h2 ?_
    rw [h2] at hc
    unfold msgState at hc ⊢
    rwa [show obsOf (pre ++ [Ev.recv off len ret data]) = obsOf pre by simp [obsOf]] at hc
  refine ⟨hall, hflagHead, ?_⟩
  by_cases hres : resp' = resp ∧ obsOf (.time t0 :: evs) = []
  · left
    refine ⟨?_, hres.1⟩
    rw [hres.2] at g2
    exact Classical.byContradiction fun h => p3 h (by rw [← g2]; rfl)
  · right
    obtain ⟨k1, k2, k3, k4, k5, k6, k7⟩ := error_live hp e hl q1 hres
    have hbody : bodyBytes w'.mem resp' <+: r.content.data ∧ resp'.bodyLen = (bodyBytes w'.mem resp').length := by
      by_cases hflag : headersOnly resp.respOptionFlags
      · rw [(k6 hflag).1, (k6 hflag).2]; exact ⟨List.nil_prefix, rfl⟩
      · rw [(k5 hflag).1, (k5 hflag).2]; exact ⟨p5, rfl⟩
    refine ⟨by rw [k1]; exact p1, ?_, by rw [hrp]; exact k4, ?_, hbody.1, hbody.2, fun hhd => ?_⟩
    · rw [hrp]
      cases hcb : resp.pHeaderParsingCallback with
      | none => rw [k4 (by rw [hcb]; rfl)]; exact List.nil_prefix
      | some c => rw [k3 (by rw [hcb]; rfl)]; exact p4
    · rw [k2]
      have := p4.length_le
      simpa using this
    · have h := k7 r (p2 hhd) p6 (stated_lt ok) hhd
      exact { h with reported := h.reported }

/-- **C72, receiving a response whose body ends with the connection.** For every beginning of it that has been received when the transport fails (many
transports report the end of the connection that way): either nothing was received and the response object is as it was passed, or the header section is
as sent, and the body is all that was received after it. -/
theorem C72_receive_open {w : World PLog σ} {r : Response} {data : Bytes} (hp : RecvPre true httpParser cfg T recv resp rh b rb w.mem)
    (ok : r.UntilClose) (hreq : ReqIs false (headerBlock w.mem rh)) (hflag : ¬ headersOnly resp.respOptionFlags) (fuel : Nat) :
    ∃ res w' evs, HTTPClient_ReceiveAndParseHttpResponse httpParser cfg fuel (some T) (some resp) (some rh) w = (res, w') ∧ w'.log = w.log ++ evs ∧
      ∀ resp', res = .ok (.networkError, resp') → received evs <+: r.head ++ data →
        (received evs = [] ∧ resp' = resp) ∨ GotOpen cfg r resp.pHeaderParsingCallback.isSome evs (received evs) w'.mem resp' := by
  obtain ⟨res, w', t0, evs, e, hl, _⟩ := C59_no_early_stop hp fuel
  refine ⟨res, w', _, e, hl, ?_⟩
  rintro resp' rfl hpre
  have hrt : received (.time t0 :: evs) = received evs := rfl
  have hrp : reported (.time t0 :: evs) = reported evs := rfl
  rw [hrt] at hpre ⊢
  obtain ⟨v, a, o, q1, q2, p1, p2, p3, p4, p5, p6⟩ := eof_run ok hpre
  have q1' : run (headersAnswer resp.respOptionFlags (startsHead w.mem rb)) 0 (View.empty, .live .start none) (received evs) = (v, .live a o) := by
    rw [answer_of hp hreq hflag]; exact q1
  obtain ⟨g2, _, _, _⟩ := error_fed hp e hl q1'
  have hlt : r.statedLength < 18446744073709551615 := by
    unfold Response.statedLength; rw [ok.noLength]; decide
  by_cases hres : resp' = resp ∧ obsOf (.time t0 :: evs) = []
  · left
    refine ⟨?_, hres.1⟩
    rw [hres.2] at g2
    exact Classical.byContradiction fun h => p3 h (by rw [← g2]; rfl)
  · right
    obtain ⟨k1, k2, k3, k4, k5, _, k7⟩ := error_live hp e hl q1' hres
    obtain ⟨k5, k6⟩ := k5 hflag
    refine ⟨by rw [k1]; exact p1, ?_, k4, ?_, by rw [k5, p5], by rw [k6, p5, List.length_drop], fun hhd => ⟨?_, ?_, ?_⟩⟩
    · rw [hrp]
      cases hcb : resp.pHeaderParsingCallback with
      | none => rw [k4 (by rw [hcb]; rfl)]; exact List.nil_prefix
      | some c => rw [k3 (by rw [hcb]; rfl)]; exact p4
    · rw [k2]
      have := p4.length_le
      simpa using this
    · have h := k7 r (p2 hhd) p6 hlt hhd
      exact { h with reported := h.reported }
    · rw [k2]
      have h1 := (p2 hhd).headers.length_le
      have h2 := p4.length_le
      simp at h1 h2
      omega
    · intro hcb
      rw [hrp, k3 hcb]
      exact p4.eq_of_length_le (p2 hhd).headers.length_le

/-- From receiving to a whole exchange. -/
theorem error_send {w : World PLog σ} {head : Bool} {wire : Bytes} {Φ : List (Ev PLog) → Mem → Resp σ → Prop}
    (hp : CallPre true httpParser cfg T send recv rh rb body n resp b w.mem) (hreq : ReqIs head (headerBlock w.mem rh)) (fuel : Nat)
    (hΦ : ∀ evs1 evs m r', received evs1 = [] → reported evs1 = [] → Φ evs m r' → Φ (evs1 ++ evs) m r')
    (hrecv : ∀ (w1 : World PLog σ) (rh1 : ReqHeaders), RecvPre true httpParser cfg T recv (withClock resp) rh1 b rb w1.mem →
      ReqIs head (headerBlock w1.mem rh1) →
      ∃ res w' evs, HTTPClient_ReceiveAndParseHttpResponse httpParser cfg fuel (some T) (some (withClock resp)) (some rh1) w1 = (res, w') ∧
        w'.log = w1.log ++ evs ∧
        ∀ resp', res = .ok (.networkError, resp') → received evs <+: wire → Φ evs w'.mem resp') :
    ∃ res w' evs, HTTPClient_Send httpParser cfg fuel (some T) (some rh) body n (some resp) flags w = (res, w') ∧ w'.log = w.log ++ evs ∧
      ∀ rh' resp', res = .ok (.networkError, rh', some resp') → received evs <+: wire →
        (recvs evs = [] ∧ resp' = withClock resp) ∨
        (accepted evs = wireRequest w.mem rh body n flags ∧ Φ evs w'.mem resp') := by
  have hblk : 16 ≤ (headerBlock w.mem rh).length := by
    have h1 := hp.reqLen; have h2 := hp.reqRoom; have h3 := hp.reqLe
    unfold headerBlock; rw [hp.reqBuf]; simp only [List.length_take]; omega
  rcases send_spec (flags := flags) hp fuel with ⟨h0, h1⟩ | ⟨_, s1, m1, rh', evs1, hfr, hb, hbl, hB, hr, ⟨q, h2, h1, hph⟩ | ⟨h1, hph⟩⟩
  · refine ⟨_, _, [], h1, by simp, ?_⟩
    intro rh' resp' h; cases h
  · refine ⟨_, _, evs1, h1, rfl, ?_⟩
    rintro rh'' resp' rfl _
    rcases h2 with h2 | h2
    · cases h2; exact .inl ⟨(sending_kinds hph.kinds).1, rfl⟩
    · cases h2
  · obtain ⟨k1, k2, _, k4⟩ := sending_kinds hph.kinds
    obtain ⟨res, w', evs, e, hl, hmain⟩ := hrecv ⟨s1, m1, w.log ++ evs1⟩ rh' hr (by dsimp only; rw [hB]; exact reqIs_wire hblk _ _ hreq)
    obtain ⟨_, _, evs', e', hl', hns, _, _⟩ := receive_no_send (w := ⟨s1, m1, w.log ++ evs1⟩) hr fuel
    rw [e] at e'; cases e'
    obtain rfl : evs = evs' := List.append_cancel_left (hl.symm.trans hl')
    rw [h1]
    simp only [M.bind_apply, e]
    refine ⟨(match res with | .ok a => .ok (a.1, some rh', some a.2) | .fault f => .fault f | .more => .more), w', evs1 ++ evs, ?_, ?_, ?_⟩
    · cases res <;> rfl
    · rw [hl]; simp
    · rintro rh'' resp' hres hpre
      rw [received_append, k4, List.nil_append] at hpre
      cases res with
      | fault f => cases hres
      | more => cases hres
      | ok a =>
        obtain ⟨st1, resp1⟩ := a
        cases hres
        refine .inr ⟨?_, hΦ _ _ _ _ k4 k2 (hmain _ rfl hpre)⟩
        rw [accepted_append', (sends_nil hns).2, List.append_nil]; exact hph.all_ rfl

/-- **C72.** A call of HTTPClient_Send that returns HTTPNetworkError, when what was received is a beginning of a well-formed response (of any size): it
received nothing, and the response object is as it was passed (a missing clock replaced); or it sent the whole request, and everything reported is
part of the response, including all of the header section, when that has been received. The response was not complete. -/
theorem C72_network_error {w : World PLog σ} {head : Bool} {r : Response}
    (hp : CallPre true httpParser cfg T send recv rh rb body n resp b w.mem) (ok : r.Ok head) (hreq : ReqIs head (headerBlock w.mem rh)) (fuel : Nat) :
    ∃ res w' evs, HTTPClient_Send httpParser cfg fuel (some T) (some rh) body n (some resp) flags w = (res, w') ∧ w'.log = w.log ++ evs ∧
      ∀ rh' resp', res = .ok (.networkError, rh', some resp') → received evs <+: r.bytes →
        (recvs evs = [] ∧ resp' = withClock resp) ∨
        (accepted evs = wireRequest w.mem rh body n flags ∧ received evs ≠ r.bytes ∧
          (headersOnly resp.respOptionFlags → ¬ r.head <+: received evs) ∧
          ((received evs = [] ∧ resp' = withClock resp) ∨
            GotPart cfg r resp.pHeaderParsingCallback.isSome evs (received evs) w'.mem resp')) := by
  refine error_send (Φ := fun evs m resp' => received evs ≠ r.bytes ∧ (headersOnly resp.respOptionFlags → ¬ r.head <+: received evs) ∧
    ((received evs = [] ∧ resp' = withClock resp) ∨ GotPart cfg r resp.pHeaderParsingCallback.isSome evs (received evs) m resp')) hp hreq fuel ?_ ?_
  · intro evs1 evs m r' k4 k2 h
    have hrec : received (evs1 ++ evs) = received evs := by rw [received_append, k4]; rfl
    have hrep : reported (evs1 ++ evs) = reported evs := by rw [reported_append, k2]; rfl
    rw [hrec]
    refine ⟨h.1, h.2.1, h.2.2.imp id fun a => ?_⟩
    exact ⟨a.1, by rw [hrep]; exact a.2, by rw [hrep]; exact a.3, a.4, a.5, a.6, fun h => { a.7 h with reported := by rw [hrep]; exact (a.7 h).reported }⟩
  · intro w1 rh1 h1 h2
    exact C72_receive h1 ok h2 fuel

/-- **C72, for a response whose body ends with the connection.** -/
theorem C72_network_error_open {w : World PLog σ} {r : Response} {data : Bytes}
    (hp : CallPre true httpParser cfg T send recv rh rb body n resp b w.mem) (ok : r.UntilClose) (hreq : ReqIs false (headerBlock w.mem rh))
    (hflag : ¬ headersOnly resp.respOptionFlags) (fuel : Nat) :
    ∃ res w' evs, HTTPClient_Send httpParser cfg fuel (some T) (some rh) body n (some resp) flags w = (res, w') ∧ w'.log = w.log ++ evs ∧
      ∀ rh' resp', res = .ok (.networkError, rh', some resp') → received evs <+: r.head ++ data →
        (recvs evs = [] ∧ resp' = withClock resp) ∨
        (accepted evs = wireRequest w.mem rh body n flags ∧
          ((received evs = [] ∧ resp' = withClock resp) ∨
            GotOpen cfg r resp.pHeaderParsingCallback.isSome evs (received evs) w'.mem resp')) := by
  refine error_send (Φ := fun evs m resp' => (received evs = [] ∧ resp' = withClock resp) ∨
    GotOpen cfg r resp.pHeaderParsingCallback.isSome evs (received evs) m resp') hp hreq fuel ?_ ?_
  · intro evs1 evs m r' k4 k2 h
    have hrec : received (evs1 ++ evs) = received evs := by rw [received_append, k4]; rfl
    have hrep : reported (evs1 ++ evs) = reported evs := by rw [reported_append, k2]; rfl
    rw [hrec]
    refine h.imp id fun a => ?_
    exact ⟨a.1, by rw [hrep]; exact a.2, by rw [hrep]; exact a.3, a.4, a.5, a.6, fun h => ⟨{ (a.7 h).1 with
      reported := by rw [hrep]; exact (a.7 h).1.reported }, (a.7 h).2.1, by rw [hrep]; exact (a.7 h).2.2⟩⟩
  · intro w1 rh1 h1 h2
    exact C72_receive_open h1 ok h2 hflag fuel

/-! ### Non-vacuity -/

/-- The peer's connection: once everything has been delivered, receiving fails. -/
def failRecv : PeerEnv → Nat → Int × Bytes × PeerEnv := fun s len => if s.2.2 = [] then (-1, [], s) else peerRecv s len

theorem failRecv_ok : RecvOk failRecv := by
  intro s len
  unfold failRecv
  split
  · simp
  · exact peerRecv_ok s len

/-- The transport. -/
def failT (request answer : Bytes) : Transport PeerEnv := ⟨some (peerSend request answer), some failRecv⟩

theorem failCallPre (request answer : Bytes) (q : Nat) (hq : q = 0 ∨ q = 1) :
    CallPre true httpParser exCfg (failT request answer) (peerSend request answer) failRecv xReq 0 (some 2) 5 (peerResp q) q xMem :=
  { peerCallPre request answer q hq with
    hasSend := rfl
    hasRecv := rfl
    recvOk := failRecv_ok }

/-- An exchange with a connection that breaks after `answer`. -/
def failRun (answer : Bytes) := HTTPClient_Send httpParser exCfg 300 (some (failT (wireRequest xMem xReq (some 2) 5 0) answer)) (some xReq) (some 2) 5
  (some (peerResp 1)) 0 ⟨(0, [], []), xMem, []⟩

/-- Returned, received, and the body. -/
def failSeen (x : Run (Status × Option ReqHeaders × Option (Resp PeerEnv)) × World PLog PeerEnv) : Option (Status × Bytes × Bytes) :=
  match x.1 with
  | .ok (st, _, some r) => some (st, received x.2.log, bodyBytes x.2.mem r)
  | _ => none

/-- All hypotheses of C72 hold for a PUT request and a chunked response, with a connection that breaks after 110 bytes. -/
example : CallPre true httpParser exCfg (failT (wireRequest xMem xReq (some 2) 5 0) (exResponse.bytes.take 110))
      (peerSend (wireRequest xMem xReq (some 2) 5 0) (exResponse.bytes.take 110)) failRecv xReq 0 (some 2) 5 (peerResp 1) 1 xMem ∧
    exResponse.Ok false ∧ ReqIs false (headerBlock xMem xReq) :=
  ⟨failCallPre _ _ 1 (.inr rfl), exResponse_ok, (show ¬ ascii "HEAD" <+: headerBlock xMem xReq by decide +kernel)⟩
example : failSeen (failRun (exResponse.bytes.take 110)) = some (.networkError, exResponse.bytes.take 110, ascii "abcdef") := by decide +kernel

/-- And for a response whose body ends with the connection. -/
example : exOpen.UntilClose ∧ failSeen (failRun (exOpen.head ++ ascii "body")) = some (.networkError, exOpen.head ++ ascii "body", ascii "body") :=
  ⟨exOpen_ok, by decide +kernel⟩

end CoreHttp.Props

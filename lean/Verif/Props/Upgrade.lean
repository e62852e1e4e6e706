import Verif.Ref.Upgrade
import Verif.Props.HeadersOnly

/-!
# Property C87: data that follows a 101 (Switching Protocols) response

The network delivers a 101 response and then bytes of the new protocol, which may arrive together with the end of the response. The parser
(Verif/Ref/Upgrade.lean) is the reference parser, stopping after such a response as llhttp does.
-/

namespace CoreHttp.Ref
open CoreHttp Spec Machine

/-- Told to pause at the end of the header section, this parser does what the reference parser does. -/
theorem up_pause (cs : Bytes) : ∀ (n : Nat) (x : View × St A), runU .pause n x cs = run .pause n x cs := by
  induction cs with
  | nil => intro n x; rfl
  | cons c cs ih =>
    intro n x
    obtain ⟨v, s⟩ := x
    cases s with
    | dead e => rw [run_dead]; exact absRun_dead httpUp .pause n v e _
    | live a o =>
      have hs : absTree .pause n c (stepU a c) v o = absTree .pause n c (step a c) v o := by
        by_cases h : ∃ i any, a = .endLF i false any ∧ c = 10 ∧ i.code = 101
        · obtain ⟨i, any, rfl, rfl, h⟩ := h
          rw [show stepU (.endLF i false any) 10 = .headers (UInt64.ofNat (i.cl.getD 0)) i.close i.keepAlive switch switch from if_pos ⟨rfl, h⟩]
          rfl
        · rw [stepU_eq fun i any h1 h2 h3 => h ⟨i, any, h1, h2, h3⟩]
      show runU .pause (n + 1) (absTree .pause n c (stepU a c) v o) cs = run .pause (n + 1) (absTree .pause n c (step a c) v o) cs
      rw [hs]
      exact ih _ _

/-- It reads the header sections of all well-formed responses. -/
theorem up_headReader : HeadReader upParser := by
  have hrun : ∀ p, absRun httpUp .pause 0 (View.empty, .live httpUp.init none) p = run .pause 0 (View.empty, .live .start none) p :=
    fun p => up_pause p 0 _
  constructor
  · intro head r ds ok h
    have hfv := feed_view httpUp_ok .pause ds
    obtain ⟨q, hq⟩ := h
    rw [hrun, ← hq, pause_run ok] at hfv
    rcases hfv with ⟨v, a, o, g1, _⟩ | ⟨v, er', g1, _, g2, g3⟩
    · cases g1
    · cases g1
      exact ⟨g2 (.inl rfl), congrArg Prod.snd g3⟩
  · intro head r ds ok h hne
    have hfv := feed_view httpUp_ok .pause ds
    obtain ⟨v, a, o, q1, q2⟩ := pause_prefix ok h hne
    rw [hrun, q1] at hfv
    rcases hfv with ⟨v', a', o', g1, _, _, g2, g3⟩ | ⟨v', er', g1, _⟩
    · cases g1
      exact ⟨(congrArg View.contentLength g2).trans q2, congrArg Prod.snd g3⟩
    · cases g1

end CoreHttp.Ref

namespace CoreHttp.Props
open CoreHttp Spec Ref Machine
variable {σ : Type} {cfg : Cfg} {T : Transport σ} {send : σ → Bytes → Int × σ} {recv : σ → Nat → Int × Bytes × σ}
  {resp : Resp σ} {rh : ReqHeaders} {b rb : Nat} {body : Option Nat} {n : Nat} {flags : UInt32} {request : Bytes} {got rest : σ → Bytes}

/-- **C87, with HTTP_RESPONSE_DO_NOT_PARSE_BODY_FLAG.** For every request that fits in its buffer, every well-formed response to it whose header section
fits in the response buffer, whatever follows the header section, and every peer that accepts the request and delivers both: HTTPClient_Send
returns HTTPSuccess with the header section as sent, and nothing of what follows is lost: pBody and bodyLen delimit what has been received of
it, and the transport delivers the rest. -/
theorem C87_flag_exchange {w : World PLog σ} {head : Bool} {r : Response} {extra : Bytes}
    (hp : CallPre true upParser cfg T send recv rh rb body n resp b w.mem)
    (ok : r.Ok head) (hflag : headersOnly resp.respOptionFlags)
    (hfit : r.head.length ≤ resp.bufferLen) (hfit' : (wireHeaders (headerBlock w.mem rh) n flags.toNat).length ≤ rh.bufferLen)
    (hP : Peer (wireRequest w.mem rh body n flags) (r.head ++ extra) got rest send recv resp) (hgot : got w.env = [])
    {fuel : Nat} (hf1 : rh.bufferLen ≤ fuel) (hf2 : n ≤ fuel) (hf3 : resp.bufferLen < fuel) :
    ∃ rh' resp' w' evs, HTTPClient_Send upParser cfg fuel (some T) (some rh) body n (some resp) flags w = (.ok (.success, some rh', some resp'), w') ∧
      w'.log = w.log ++ evs ∧ got w'.env = wireRequest w.mem rh body n flags ∧
      bodyBytes w'.mem resp' ++ rest w'.env = extra ∧
      GotHead cfg r resp.pHeaderParsingCallback.isSome evs (received evs) w'.mem resp' :=
  headers_only_exchange up_headReader hp ok hflag hfit hfit' hP hgot hf1 hf2 hf3

/-- Receiving a 101 response and what follows it. -/
theorem C87_switching_receive {w : World PLog σ} {head : Bool} {r : Response} {extra : Bytes}
    (hp : RecvPre true upParser cfg T recv resp rh b rb w.mem)
    (ok : r.Ok head) (h101 : r.code = 101) (hc : r.content = .none) (hreq : ReqIs head (headerBlock w.mem rh))
    (hflag : ¬ headersOnly resp.respOptionFlags) (hfit : r.bytes.length ≤ resp.bufferLen) (fuel : Nat) :
    ∃ res w' t0 evs, HTTPClient_ReceiveAndParseHttpResponse upParser cfg fuel (some T) (some resp) (some rh) w = (res, w') ∧
      w'.log = w.log ++ .time t0 :: evs ∧
      (Delivers (r.bytes ++ extra) evs → ∀ st resp', res = .ok (st, resp') →
        (st = .success ∧ ∃ x, received evs = r.bytes ++ x ∧ x <+: extra ∧ Got cfg r resp.pHeaderParsingCallback.isSome evs w'.mem resp') ∨
        ((st = .partialResponse ∨ st = .noResponse) ∧ ¬ r.bytes <+: received evs ∧
          ∃ pre off len t post, evs = pre ++ .recv off len 0 [] :: .time t :: post ∧ recvs post = [] ∧
            (resp.getTime.isZero = true ∨ cfg.recvTimeoutMs ≤ t - lastRecv t0 pre))) := by
  have hbytes : r.bytes = r.head := by simp [Response.bytes, hc, Content.bytes]
  obtain ⟨res, w', t0, evs, e, hl, h59⟩ := C59_no_early_stop hp fuel
  refine ⟨res, w', t0, evs, e, hl, ?_⟩
  rintro hdel st resp' rfl
  have hrt : received (.time t0 :: evs) = received evs := rfl
  have hrp : reported (.time t0 :: evs) = reported evs := rfl
  have hpre := delivers_prefix evs hdel
  have hne : st ≠ .networkError := by
    rintro rfl
    obtain ⟨_, _, evs1, e1, l1, _, h1⟩ := C31_receive_error hp fuel
    rw [e] at e1; cases e1
    obtain rfl : Ev.time t0 :: evs = evs1 := List.append_cancel_left (hl.symm.trans l1)
    obtain ⟨pre, off, len, ret, data, h2, h3⟩ := h1 _ rfl
    rcases split_cons h2 with ⟨_, h4, _⟩ | ⟨pre', rfl, h4⟩
    · cases h4
    · have := (hdel _ _ _ _ _ _ h4).1
      omega
  obtain ⟨er, f1, f2, f3, _, _, f7, f6⟩ := returned_fed hp e hl hne
  rw [answer_of hp hreq hflag] at f1
  rw [hrt] at f1 f2 f6
  have hfv := feed_view httpUp_ok (answerTo head) (calls (.time t0 :: evs))
  rw [show feedAll httpUp.toParser = feedAll upParser from rfl, f1, f2] at hfv
  have hrun : ∀ p, absRun httpUp (answerTo head) 0 (View.empty, .live httpUp.init none) p = runU (answerTo head) 0 (View.empty, .live .start none) p :=
    fun _ => rfl
  rw [hrun] at hfv
  by_cases hall : r.bytes <+: received evs
  · left
    obtain ⟨x, hx⟩ := id hall
    rw [← hx, hbytes, up_run ok h101 hc] at hfv
    rcases hfv with ⟨v, a, o, g1, _⟩ | ⟨v, er', g1, _, g2, g3⟩
    · cases g1
    · have her : er = er' := congrArg Prod.snd g3
      subst her
      obtain ⟨rfl, g1⟩ := Prod.mk.inj g1
      cases g1
      replace g2 := g2 (.inr rfl)
      dsimp only at g2
      have hms : msgState (.time t0 :: evs) = .complete := by unfold msgState; rw [g2]; rfl
      have hst : st = .success := by
        rw [f6, if_neg (by decide), if_pos (.inr rfl), hms]; rfl
      have hg := got_of_final hp ok hflag e hl hne g2 hall
      refine ⟨hst, x, hx.symm, ?_, { hg with reported := hg.reported }⟩
      rw [← hx] at hpre
      exact (List.prefix_append_right_inj _).mp hpre
  · right
    have hpr : received evs <+: r.bytes := by
      rcases List.prefix_or_prefix_of_prefix hpre (List.prefix_append r.bytes extra) with h | h
      · exact h
      · exact absurd h hall
    have hner : received evs ≠ r.bytes := fun h => hall (by rw [h]; exact List.prefix_refl _)
    obtain ⟨v, a, o, q1, q2⟩ := up_prefix ok hc (by rw [← hbytes]; exact hpr) (by rw [← hbytes]; exact hner)
    rw [q1] at hfv
    have hlt : (received evs).length < r.bytes.length := by
      rcases Nat.lt_or_ge (received evs).length r.bytes.length with h | h
      · exact h
      · exact absurd (hpr.eq_of_length_le h) hner
    rcases hfv with ⟨v', a', o', g1, _, _, g2, g3⟩ | ⟨v', er', g1, _⟩
    · obtain ⟨rfl, _⟩ := Prod.mk.inj g1
      have her : er = .ok := congrArg Prod.snd g3
      subst her
      have hms : msgState (.time t0 :: evs) ≠ .complete := by unfold msgState; rw [g2]; exact q2
      have hfl0 : decide (resp.respOptionFlags &&& DO_NOT_PARSE_BODY_FLAG ≠ 0) = false :=
        decide_eq_false fun h => hflag ((headersOnly_iff _).mp h)
      have hst : st = .partialResponse ∨ st = .noResponse := by
        rw [f6, if_neg (by decide), if_pos (.inl rfl), hfl0, decide_eq_false (by omega)]
        cases hm : msgState (.time t0 :: evs) with
        | none => right; rfl
        | incomplete => left; rfl
        | complete => exact absurd hm hms
      exact ⟨hst, hall, h59 st resp' rfl (hst.imp id fun h => ⟨h, by omega⟩)⟩
    · cases g1

/-- When the whole 101 response has been received, nothing more is. -/
theorem fed_switch {w : World PLog σ} {head : Bool} {r : Response} (hp : RecvPre true upParser cfg T recv resp rh b rb w.mem)
    (ok : r.Ok head) (h101 : r.code = 101) (hc : r.content = .none) (hreq : ReqIs head (headerBlock w.mem rh))
    (hflag : ¬ headersOnly resp.respOptionFlags)
    {evs : List (Ev PLog)} (hf : FedOk upParser (policy resp.respOptionFlags (startsHead w.mem rb)) evs) (hall : r.bytes <+: received evs) :
    msgState evs = .complete := by
  have hbytes : r.bytes = r.head := by simp [Response.bytes, hc, Content.bytes]
  obtain ⟨f1, f2, f3⟩ := hf
  rw [policy_eq, answer_of hp hreq hflag] at f2 f3
  have hfl : (calls evs).flatten = received evs := by rw [calls_flatten, f1]
  have hfv := feed_view httpUp_ok (answerTo head) (calls evs)
  have hrun : ∀ p, absRun httpUp (answerTo head) 0 (View.empty, .live httpUp.init none) p = runU (answerTo head) 0 (View.empty, .live .start none) p :=
    fun _ => rfl
  obtain ⟨x, hx⟩ := hall
  rw [show feedAll httpUp.toParser = feedAll upParser from rfl, hrun, hfl, ← hx, hbytes, up_run ok h101 hc] at hfv
  rcases hfv with ⟨v, a, o, g1, _⟩ | ⟨v, er', g1, g2, _, g3⟩
  · cases g1
  · rw [g3] at f3
    exact absurd f3 g2

/-- **C87, with a cooperative peer, receiving** (partial: see `C87_exchange_partial`). -/
theorem C87_peer_receive_partial {w : World PLog σ} {head : Bool} {r : Response} {extra : Bytes} (hp : RecvPre true upParser cfg T recv resp rh b rb w.mem)
    (ok : r.Ok head) (h101 : r.code = 101) (hc : r.content = .none) (hreq : ReqIs head (headerBlock w.mem rh)) (hflag : ¬ headersOnly resp.respOptionFlags)
    (hfit : r.bytes.length ≤ resp.bufferLen) (hP : Peer request (r.bytes ++ extra) got rest send recv resp)
    (hgot : got w.env = request) (hrest : rest w.env = r.bytes ++ extra) {fuel : Nat} (hfuel : resp.bufferLen < fuel) :
    ∃ resp' w' evs x, HTTPClient_ReceiveAndParseHttpResponse upParser cfg fuel (some T) (some resp) (some rh) w = (.ok (.success, resp'), w') ∧
      w'.log = w.log ++ evs ∧ received evs = r.bytes ++ x ∧ x ++ rest w'.env = extra ∧ got w'.env = request ∧
      Got cfg r resp.pHeaderParsingCallback.isSome evs w'.mem resp' := by
  have hx' : ∀ s len, (recv s len).1 = ((recv s len).2.1.length : Int) := fun s len => (hP.delivers s len).1
  obtain ⟨res, w', t0, evs, e, hl, h87⟩ := C87_switching_receive (extra := extra) hp ok h101 hc hreq hflag hfit fuel
  -- the relation of environment and trace
  have hk := (receive_keeps upParser cfg hp.hasRecv (receiving_inv hP w.log) rh fuel w
    ⟨[], by simp, hgot, by simpa [received] using hrest, by intro pre off len ret data post h; cases pre <;> cases h⟩).1
  rw [e] at hk
  obtain ⟨evs', hl', g1, g2, g3⟩ := hk
  obtain rfl : Ev.time t0 :: evs = evs' := List.append_cancel_left (hl.symm.trans hl')
  -- every receive call delivers something
  have hne : ∀ pre off len ret data post, Ev.time t0 :: evs = pre ++ .recv off len ret data :: post → data ≠ [] := by
    intro pre off len ret data post he h0
    obtain ⟨_, _, evs1, e1, l1, h29, _⟩ := C29_receive_contiguous hp fuel
    rw [e] at e1; cases e1
    obtain rfl : Ev.time t0 :: evs = evs1 := List.append_cancel_left (hl.symm.trans l1)
    obtain ⟨_, _, evs1, e1, l1, h51⟩ := C51_one_response_partial hp fuel
    rw [e] at e1; cases e1
    obtain rfl : Ev.time t0 :: evs = evs1 := List.append_cancel_left (hl.symm.trans l1)
    obtain ⟨_, _, t1, evs1, e1, l1, hfa⟩ := receive_fedAt hp fuel
    rw [e] at e1; cases e1
    obtain ⟨ht, hev⟩ := List.cons.inj (List.append_cancel_left (hl.symm.trans l1))
    cases ht; cases hev
    rcases (g3 _ _ _ _ _ _ he).2.2 h0 with h1 | h1
    · have := (h29 _ _ _ _ _ _ he).2.2.1; omega
    · refine h51 _ _ _ _ _ _ he (fed_switch hp ok h101 hc hreq hflag ?_ (by rw [h1]; exact List.prefix_append _ _))
      rcases split_cons he with ⟨_, h2, _⟩ | ⟨pre', rfl, h2⟩
      · cases h2
      · exact hfa _ _ _ _ _ _ h2
  have hcount := recvs_le_received hne
  have hlen : (received (Ev.time t0 :: evs)).length ≤ resp.bufferLen := by
    obtain ⟨r1, w1, t1, tr1, e1, l1, hev, _⟩ := receive_spec hp fuel
    rw [e] at e1; cases e1
    have h1 : Ev.time t0 :: evs = Ev.time t1 :: tr1 := List.append_cancel_left (hl.symm.trans l1)
    rw [h1]
    exact received_le hev
  -- the call returns
  have hm : res ≠ .more := by
    rintro rfl
    have h1 := receive_more hp hx' (fuel := fuel) (by rw [e])
    rw [e] at h1
    dsimp only at h1
    rw [hl, recvs_append, List.length_append] at h1
    omega
  have hnf : ∀ f, res ≠ .fault f := by
    obtain ⟨_, _, _, e1, _, _, h1, _⟩ := receive_no_send hp fuel
    rw [e] at e1; cases e1
    exact h1
  rcases res with ⟨st, resp'⟩ | f | _
  · have hdel : Delivers (r.bytes ++ extra) evs := by
      intro pre off len ret data post he
      have := g3 (.time t0 :: pre) off len ret data post (by rw [he]; rfl)
      exact ⟨this.1, this.2.1⟩
    rcases h87 hdel _ _ rfl with ⟨rfl, x, h1, h2, h3⟩ | ⟨_, _, pre, off, len, t, post, h1, _⟩
    · have hr : received (Ev.time t0 :: evs) = r.bytes ++ x := h1
      rw [hr, List.append_assoc] at g2
      have g2 := List.append_cancel_left g2
      exact ⟨resp', w', _, x, e, hl, hr, g2, g1, { h3 with reported := h3.reported }⟩
    · exact absurd rfl (hne (.time t0 :: pre) off len 0 [] _ (by rw [h1]; rfl))
  · exact absurd rfl (hnf f)
  · exact absurd rfl hm

/-- **C87, what holds without the flag.** For every request that fits in its buffer, every well-formed 101 response that fits in the response buffer, all
bytes of the new protocol that follow, and every peer that accepts the request and delivers both, in pieces of any size and at any speed: HTTPClient_Send
returns HTTPSuccess with exactly the response as sent, and nothing of what follows is taken for a part of it. What was read of it (`x`) is no longer to be
had from the transport. Missing: that the application can find `x` (false, `C87_refuted`). -/
theorem C87_exchange_partial {w : World PLog σ} {head : Bool} {r : Response} {extra : Bytes}
    (hp : CallPre true upParser cfg T send recv rh rb body n resp b w.mem)
    (ok : r.Ok head) (h101 : r.code = 101) (hc : r.content = .none) (hreq : ReqIs head (headerBlock w.mem rh)) (hflag : ¬ headersOnly resp.respOptionFlags)
    (hfit : r.bytes.length ≤ resp.bufferLen) (hfit' : (wireHeaders (headerBlock w.mem rh) n flags.toNat).length ≤ rh.bufferLen)
    (hP : Peer (wireRequest w.mem rh body n flags) (r.bytes ++ extra) got rest send recv resp) (hgot : got w.env = [])
    {fuel : Nat} (hf1 : rh.bufferLen ≤ fuel) (hf2 : n ≤ fuel) (hf3 : resp.bufferLen < fuel) :
    ∃ rh' resp' w' evs x,
      HTTPClient_Send upParser cfg fuel (some T) (some rh) body n (some resp) flags w = (.ok (.success, some rh', some resp'), w') ∧
      w'.log = w.log ++ evs ∧ got w'.env = wireRequest w.mem rh body n flags ∧ x ++ rest w'.env = extra ∧
      accepted evs = wireRequest w.mem rh body n flags ∧ received evs = r.bytes ++ x ∧
      Got cfg r resp.pHeaderParsingCallback.isSome evs w'.mem resp' := by
  have hblk : 16 ≤ (headerBlock w.mem rh).length := by
    have h1 := hp.reqLen; have h2 := hp.reqRoom; have h3 := hp.reqLe
    unfold headerBlock; rw [hp.reqBuf]; simp only [List.length_take]; omega
  have hP' : Peer (wireRequest w.mem rh body n flags) (r.bytes ++ extra) got rest send recv (withClock resp) :=
    { hP with
      clock := by
        intro f hf
        refine hP.clock f ?_
        unfold withClock at hf
        cases hc : resp.getTime <;> rw [hc] at hf <;> first | exact hf | cases hf
      header := hP.header }
  have hwr : wireRequest w.mem rh body n flags ≠ [] := by
    intro h
    have h1 := congrArg List.length (wireHeaders_take hblk n flags.toNat)
    have h2 : wireHeaders (headerBlock w.mem rh) n flags.toNat = [] := by
      unfold wireRequest at h; exact (List.append_eq_nil_iff.mp h).1
    rw [h2] at h1
    simp at h1
    omega
  obtain ⟨h', hall⟩ := sendRequest_all (flags := flags) (withClock_ne resp) hp hfit' hP.accepts hf1 hf2
  have hk := (sendRequest_keeps (sending_inv hP' w.log) cfg hp.hasSend rh body n flags fuel w
    ⟨[], by simp, by simpa [accepted] using hgot, fun h => absurd h.symm hwr⟩).1
  rw [send_eq hp fuel]
  simp only [M.bind_apply]
  rcases sendRequest_spec (flags := flags) (withClock_ne resp) hp fuel with ⟨h1, h2⟩ | ⟨h1, q, s', m', rh', evs1, e, hfr, hb, hbl, hle, hB, hlen, h2⟩
  · omega
  rw [e] at hall hk
  dsimp only at hall
  rcases h2 with ⟨rfl, hph⟩ | ⟨rfl | rfl, _⟩
  · rw [e]
    simp only [if_true, M.bind_apply]
    obtain ⟨evs1', hl1, k1, k2⟩ := hk
    obtain rfl : evs1 = evs1' := List.append_cancel_left hl1
    obtain ⟨s1, s2, _, s4⟩ := sending_kinds hph.kinds
    have hacc := hph.all_ rfl
    have hr := recvPre_of hp hfr hb hbl hle hB hlen
    obtain ⟨resp', w', evs, x, e2, hl2, a1, a2, a3, a4⟩ := C87_peer_receive_partial (w := ⟨s', m', w.log ++ evs1⟩) (r := r) (head := head)
      (extra := extra) hr ok h101 hc (by dsimp only; rw [hB]; exact reqIs_wire hblk _ _ hreq) hflag hfit hP' (k1.trans hacc) (k2 hacc) hf3
    obtain ⟨_, _, evs', e', hl', hns, _, _⟩ := receive_no_send (w := ⟨s', m', w.log ++ evs1⟩) hr fuel
    rw [e2] at e'; cases e'
    obtain rfl : evs = evs' := List.append_cancel_left (hl2.symm.trans hl')
    rw [e2]
    refine ⟨rh', resp', w', evs1 ++ evs, x, rfl, by rw [hl2]; simp, a3, a2, ?_, ?_, ?_⟩
    · rw [accepted_append', (sends_nil hns).2, List.append_nil]; exact hacc
    · rw [received_append, s4]; exact a1
    · exact { a4 with reported := by rw [reported_append, s2]; exact a4.reported }
  · cases hall
  · cases hall

/-! ### Non-vacuity and refutation -/

/-- A response that switches protocols. -/
def ex101 : Response :=
  ⟨.v11, 101, ascii "Switching Protocols", [⟨ascii "Upgrade", [32], ascii "websocket"⟩, ⟨ascii "Connection", [32], ascii "Upgrade"⟩], .none⟩

theorem ex101_ok : ex101.Ok false where
  code := ⟨by decide, by decide⟩
  reason := by decide +kernel
  fields := by
    intro f hf
    simp only [ex101, List.mem_cons, List.not_mem_nil, or_false] at hf
    rcases hf with rfl | rfl <;> exact ⟨by decide +kernel, by decide +kernel, by decide +kernel, by decide +kernel⟩
  content := ⟨.inr ⟨.inl (by decide), by decide +kernel, by
    rintro ⟨f, hf, h1, _⟩
    simp only [ex101, List.mem_cons, List.not_mem_nil, or_false] at hf
    rcases hf with rfl | rfl <;> revert h1 <;> decide +kernel⟩, .inl (by decide +kernel)⟩

theorem upCallPre (request answer : Bytes) (q : Nat) (hq : q = 0 ∨ q = 1) :
    CallPre true upParser exCfg (peerT request answer) (peerSend request answer) peerRecv xReq 0 (some 2) 5 (peerResp q) q xMem :=
  { peerCallPre request answer q hq with parser := upParser_ok }

/-- All hypotheses of C87 hold for a PUT request and a 101 response, with anything after it. -/
example (extra : Bytes) (q : Nat) (hq : q = 0 ∨ q = 1) (t : Nat) : ∃ rh' resp' w' evs x,
    HTTPClient_Send upParser exCfg 300 (some (peerT (wireRequest xMem xReq (some 2) 5 0) (ex101.bytes ++ extra)))
      (some xReq) (some 2) 5 (some (peerResp q)) 0 ⟨(t, [], []), xMem, []⟩ = (.ok (.success, some rh', some resp'), w') ∧ w'.log = evs ∧
    received evs = ex101.bytes ++ x ∧ x ++ w'.env.2.2 = extra ∧ resp'.statusCode = 101 ∧ resp'.headerCount = 2 ∧ bodyBytes w'.mem resp' = [] := by
  obtain ⟨rh', resp', w', evs, x, e, hl, _, h2, _, h4, h5⟩ := C87_exchange_partial (w := (⟨(t, [], []), xMem, []⟩ : World PLog PeerEnv))
    (flags := 0) (fuel := 300) (upCallPre _ _ q hq) ex101_ok rfl rfl (show ¬ ascii "HEAD" <+: headerBlock xMem xReq by decide +kernel)
    (show ¬ ((0 : UInt32).toNat % 2 = 1) by decide) (show ex101.bytes.length ≤ 200 by decide +kernel)
    (show (wireHeaders (headerBlock xMem xReq) 5 (UInt32.toNat 0)).length ≤ 60 by decide +kernel) (peer_ok _ _ q) rfl
    (by decide) (by decide) (show 200 < 300 by decide)
  exact ⟨rh', resp', w', evs, x, e, by simpa using hl, h4, h2, h5.statusCode, h5.headerCount, h5.body⟩

/-- With HTTP_RESPONSE_DO_NOT_PARSE_BODY_FLAG everything is there. -/
example (extra : Bytes) (q : Nat) (hq : q = 0 ∨ q = 1) (t : Nat) : ∃ rh' resp' w' evs,
    HTTPClient_Send upParser exCfg 300 (some (peerT (wireRequest xMem xReq (some 2) 5 0) (ex101.head ++ extra)))
      (some xReq) (some 2) 5 (some (flagResp q)) 0 ⟨(t, [], []), xMem, []⟩ = (.ok (.success, some rh', some resp'), w') ∧ w'.log = evs ∧
    bodyBytes w'.mem resp' ++ w'.env.2.2 = extra ∧ resp'.statusCode = 101 := by
  obtain ⟨rh', resp', w', evs, e, hl, _, h2, h3⟩ := C87_flag_exchange (w := (⟨(t, [], []), xMem, []⟩ : World PLog PeerEnv))
    (flags := 0) (fuel := 300) { flagCallPre _ _ q hq with parser := upParser_ok } ex101_ok (show (1 : UInt32).toNat % 2 = 1 by decide)
    (show ex101.head.length ≤ 100 by decide +kernel)
    (show (wireHeaders (headerBlock xMem xReq) 5 (UInt32.toNat 0)).length ≤ 60 by decide +kernel) (flag_peer _ _ q) rfl
    (by decide) (by decide) (show 100 < 300 by decide)
  exact ⟨rh', resp', w', evs, e, by simpa using hl, h2, h3.statusCode⟩

/-- Everything an application can look at when HTTPClient_Send has returned: the status, all fields of the response object, the contents of its two
buffers (block 0 the request, block 1 the response), and what the header callback was given. -/
structure Left where
  st : Status
  pointers : Option Nat × Option Nat × Option Nat
  lengths : Nat × Nat × Nat
  statusCode : Nat
  contentLength : Nat
  headerCount : Nat
  areHeadersComplete : Nat
  flags : UInt32 × UInt32
  request : Bytes
  response : Bytes
  reported : List (Bytes × Bytes × Nat)
deriving DecidableEq, Repr

/-- A call of HTTPClient_Send: the response buffer holds `old`, the network delivers `s`. What is left, and what was received. -/
def upRun (old : Bytes) (s : List Bytes) : Option (Left × Bytes) :=
  match HTTPClient_Send upParser exCfg 50 (some scriptT) (some (exReq exGet)) none 0 (some (exResp old.length 0)) 0
    ⟨(0, s), fun i => if i = 0 then exGet else old, []⟩ with
  | (.ok (st, _, some r), w) => some (⟨st, (r.pBuffer, r.pHeaders, r.pBody), (r.bufferLen, r.headersLen, r.bodyLen), r.statusCode, r.contentLength,
      r.headerCount, r.areHeadersComplete, (r.respOptionFlags, r.respFlags), w.mem 0, w.mem 1, reported w.log⟩, received w.log)
  | _ => none

/-- **C87 is false**: two calls that leave the application with exactly the same: HTTPSuccess, the same response object, the same buffers, the same
reported headers. In one of them the first two bytes of the new protocol have been received together with the response; in the other nothing has,
and these bytes were in the buffer before. So nothing tells the application which bytes have been received. -/
theorem C87_refuted : ∃ old₁ old₂ : Bytes, old₁.length = 100 ∧ old₂.length = 100 ∧ ∃ l : Left, l.st = .success ∧ l.statusCode = 101 ∧
    upRun old₁ [ex101.bytes ++ ascii "ab"] = some (l, ex101.bytes ++ ascii "ab") ∧
    upRun old₂ [ex101.bytes] = some (l, ex101.bytes) := by
  refine ⟨List.replicate 100 0, List.replicate ex101.bytes.length 0 ++ ascii "ab" ++ List.replicate (98 - ex101.bytes.length) 0, by decide +kernel,
    by decide +kernel, {
      st := .success
      pointers := (some 1, some 34, none)
      lengths := (100, 39, 0)
      statusCode := 101
      contentLength := 0
      headerCount := 2
      areHeadersComplete := 1
      flags := (0, 0)
      request := exGet
      response := ex101.bytes ++ ascii "ab" ++ List.replicate (98 - ex101.bytes.length) 0
      reported := [(ascii "Upgrade", ascii "websocket", 101), (ascii "Connection", ascii "Upgrade", 101)] }, rfl, rfl, ?_, ?_⟩ <;> decide +kernel

end CoreHttp.Props

import Verif.Ref.Partial
import Verif.Props.Exchange

/-!
# Property C68: responses of any size, complete or not

The network delivers a well-formed response, or the beginning of one; the response may be larger than the buffer. `Response`, `Delivers`:
Verif/Spec/Wire.lean. The parser is the reference parser.
-/

namespace CoreHttp.Props
open CoreHttp Spec Ref Machine
variable {σ : Type} {cfg : Cfg} {T : Transport σ} {send : σ → Bytes → Int × σ} {recv : σ → Nat → Int × Bytes × σ}
  {resp : Resp σ} {rh : ReqHeaders} {b rb : Nat} {body : Option Nat} {n : Nat} {flags : UInt32} {request : Bytes} {got rest : σ → Bytes}

/-- The application gets the header section of the response `r`; `got` is everything received. -/
structure GotFields (cfg : Cfg) (r : Response) (cb : Bool) (evs : List (Ev PLog)) (got : Bytes) (m : Mem) (resp' : Resp σ) : Prop where
  statusCode : resp'.statusCode = r.code
  reported : cb = true → (r.fields.map fun f => (f.name, f.value, r.code)) <+: reported evs
  headerCount : r.fields.length ≤ resp'.headerCount
  complete : resp'.areHeadersComplete = 1
  contentLength : r.statedLength < 2 ^ cfg.sizeBits → resp'.contentLength = r.statedLength
  close : bit resp'.respFlags 0 ↔ r.connection "close"
  keepAlive : bit resp'.respFlags 1 ↔ r.connection "keep-alive"
  /-- the buffer begins with the status line and header section, as sent -/
  head : ∀ b, resp'.pBuffer = some b → (m b).take r.head.length = r.head
  bodyPlace : ∀ q, resp'.pBody = some q → r.head.length ≤ q

/-- The application gets nothing that is not part of the response `r`; and the header section, when all of it has been received. -/
structure GotPart (cfg : Cfg) (r : Response) (cb : Bool) (evs : List (Ev PLog)) (got : Bytes) (m : Mem) (resp' : Resp σ) : Prop where
  statusCode : resp'.statusCode = 0 ∨ resp'.statusCode = r.code
  reported : reported evs <+: (r.fields ++ r.content.trailers.dropLast).map fun f => (f.name, f.value, r.code)
  noCallback : cb = false → Spec.reported evs = []
  headerCount : resp'.headerCount ≤ r.fields.length + (r.content.trailers.length - 1)
  body : bodyBytes m resp' <+: r.content.data
  bodyLen : resp'.bodyLen = (bodyBytes m resp').length
  head : r.head <+: got → GotFields cfg r cb evs got m resp'

/-- What a call reports when the parser, having read what was received, is in the middle of a message or at the end of one. -/
theorem returned_live {w w' : World PLog σ} {head : Bool} {t0 : UInt32} {evs : List (Ev PLog)} {st : Status} {resp' : Resp σ} {fuel : Nat}
    (hp : RecvPre true httpParser cfg T recv resp rh b rb w.mem) (hreq : ReqIs head (headerBlock w.mem rh)) (hflag : ¬ headersOnly resp.respOptionFlags)
    (e : HTTPClient_ReceiveAndParseHttpResponse httpParser cfg fuel (some T) (some resp) (some rh) w = (.ok (st, resp'), w'))
    (hl : w'.log = w.log ++ .time t0 :: evs) (hne : st ≠ .networkError) {v : View} {a : A} {o : Option SpanK}
    (hv : run (answerTo head) 0 (View.empty, .live .start none) (received evs) = (v, .live a o)) :
    view (obsOf (.time t0 :: evs)) = v ∧
    st = finalStatus v.state (decide ((received evs).length = resp.bufferLen)) false ∧
    resp'.statusCode = v.statusCode ∧ resp'.headerCount = v.headers.length ∧
    (resp.pHeaderParsingCallback.isSome = true → reported evs = v.headers) ∧ (resp.pHeaderParsingCallback.isSome = false → reported evs = []) ∧
    bodyBytes w'.mem resp' = v.body ∧ resp'.bodyLen = v.body.length ∧
    ∀ r : Response, HeadSeen r v → v.messages ≤ 1 → r.statedLength < 18446744073709551615 → r.head <+: received evs →
      GotFields cfg r resp.pHeaderParsingCallback.isSome evs (received evs) w'.mem resp' := by
  have hrt : received (.time t0 :: evs) = received evs := rfl
  have hrp : reported (.time t0 :: evs) = reported evs := rfl
  obtain ⟨er, f1, f2, f3, _, _, f7, f6⟩ := returned_fed hp e hl hne
  rw [answer_of hp hreq hflag] at f1
  rw [hrt] at f1 f2 f6
  have hfv := feed_view http_machine_ok (answerTo head) (calls (.time t0 :: evs))
  rw [show feedAll http.toParser = feedAll httpParser from rfl, f1, f2] at hfv
  have hrun : ∀ p, absRun http (answerTo head) 0 (View.empty, .live http.init none) p = run (answerTo head) 0 (View.empty, .live .start none) p :=
    fun _ => rfl
  rw [hrun, hv] at hfv
  rcases hfv with ⟨v', a', o', g1, _, _, g2, g3⟩ | ⟨v', er', g1, _⟩
  · obtain ⟨rfl, _⟩ := Prod.mk.inj g1
    have her : er = .ok := congrArg Prod.snd g3
    subst her
    have hms : msgState (.time t0 :: evs) = v.state := by unfold msgState; rw [g2]
    have hfl0 : decide (resp.respOptionFlags &&& DO_NOT_PARSE_BODY_FLAG ≠ 0) = false :=
      decide_eq_false fun h => hflag ((headersOnly_iff _).mp h)
    rw [if_neg (by decide), if_pos (.inl rfl), hfl0, hms] at f6
    obtain ⟨_, _, evs1, e1, l1, h1⟩ := C39_headers_reported hp fuel
    rw [e] at e1; cases e1
    obtain rfl : Ev.time t0 :: evs = evs1 := List.append_cancel_left (hl.symm.trans l1)
    obtain ⟨h39a, h39b, h39c⟩ := h1 _ _ rfl
    obtain ⟨h39c, h39d⟩ := h39c (.inl hne)
    obtain ⟨_, _, evs1, e1, l1, h1⟩ := C40_body_assembled hp fuel hflag
    rw [e] at e1; cases e1
    obtain rfl : Ev.time t0 :: evs = evs1 := List.append_cancel_left (hl.symm.trans l1)
    have h40 := h1 _ _ rfl (.inl hne)
    obtain ⟨_, _, evs1, e1, l1, h1⟩ := C49_content_length_partial hp fuel
    rw [e] at e1; cases e1
    obtain rfl : Ev.time t0 :: evs = evs1 := List.append_cancel_left (hl.symm.trans l1)
    have h49 := h1 _ _ rfl
    obtain ⟨_, _, evs1, e1, l1, h1⟩ := C41_header_section_kept hp fuel
    rw [e] at e1; cases e1
    obtain rfl : Ev.time t0 :: evs = evs1 := List.append_cancel_left (hl.symm.trans l1)
    have h41 := h1 _ _ rfl
    rw [g2] at h39a h39c h39d h40 h49 h41 f7
    rw [hrp] at h39a h39b
    refine ⟨g2, f6, h39d, h39c, h39a rfl, fun h => h39b rfl (by simpa using h), h40.1, h40.2, ?_⟩
    rintro r ⟨s1, s2, s3, s4, s5, s6⟩ p6 hlt hhd
    have h49 := h49 (UInt64.ofNat r.statedLength) s3
    have hto : (UInt64.ofNat r.statedLength).toNat = r.statedLength := by
      rw [UInt64.toNat_ofNat']
      exact Nat.mod_eq_of_lt (Nat.lt_trans hlt (by decide))
    rw [hto] at h49
    have h41 := h41 p6 r.head.length s6
    have hb0 : ∀ a c, (bit (connFlags a c) 0 ↔ a = true) ∧ (bit (connFlags a c) 1 ↔ c = true) := by
      intro a c; unfold bit; cases a <;> cases c <;> exact ⟨by decide, by decide⟩
    refine ⟨h39d.trans s1, ?_, ?_, h49.1, fun h => h49.2.1 h (by omega), ?_, ?_, ?_, h41.2.2⟩
    · intro hcb; rw [h39a rfl hcb]; exact s2
    · rw [h39c]; have := s2.length_le; simpa using this
    · rw [f7, s4, (hb0 _ _).1]; exact any_conn r "close"
    · rw [f7, s5, (hb0 _ _).2]; exact any_conn r "keep-alive"
    · intro b' hb'
      rw [(receive_setUp hp e).1, hp.buf] at hb'
      cases hb'
      obtain ⟨t, ht⟩ := hhd
      rw [h41.2.1, hrt, ← ht, List.take_left]
  · cases g1

/-- **C68, receiving.** For every well-formed response, of any size, and every history in which the network delivers it (in pieces of any size, with any
delays, by any transport and clock), a call that returns has
* received all of it: HTTPSuccess, and everything is as sent; or
* filled the buffer with a part of it: HTTPInsufficientMemory; or
* received a part of it before the retry timeout expired: HTTPNoResponse if there was nothing, HTTPPartialResponse if there was something;
and in the last two cases everything reported is part of the response, including all of the header section, when that has been received. -/
theorem C68_incomplete_receive {w : World PLog σ} {head : Bool} {r : Response} (hp : RecvPre true httpParser cfg T recv resp rh b rb w.mem)
    (ok : r.Ok head) (hreq : ReqIs head (headerBlock w.mem rh)) (hflag : ¬ headersOnly resp.respOptionFlags) (fuel : Nat) :
    ∃ res w' t0 evs, HTTPClient_ReceiveAndParseHttpResponse httpParser cfg fuel (some T) (some resp) (some rh) w = (res, w') ∧
      w'.log = w.log ++ .time t0 :: evs ∧
      (Delivers r.bytes evs → ∀ st resp', res = .ok (st, resp') →
        (st = .success ∧ received evs = r.bytes ∧ Got cfg r resp.pHeaderParsingCallback.isSome evs w'.mem resp') ∨
        (received evs ≠ r.bytes ∧ GotPart cfg r resp.pHeaderParsingCallback.isSome evs (received evs) w'.mem resp' ∧
          ((st = .insufficientMemory ∧ (received evs).length = resp.bufferLen) ∨
            ((received evs).length < resp.bufferLen ∧ st = (if received evs = [] then .noResponse else .partialResponse) ∧
              ∃ pre off len t post, evs = pre ++ .recv off len 0 [] :: .time t :: post ∧ recvs post = [] ∧
                (resp.getTime.isZero = true ∨ cfg.recvTimeoutMs ≤ t - lastRecv t0 pre))))) := by
  obtain ⟨res, w', t0, evs, e, hl, h59⟩ := C59_no_early_stop hp fuel
  refine ⟨res, w', t0, evs, e, hl, ?_⟩
  rintro hdel st resp' rfl
  have hrt : received (.time t0 :: evs) = received evs := rfl
  have hrp : reported (.time t0 :: evs) = reported evs := rfl
  have hpre := delivers_prefix evs hdel
  have hlen : (received evs).length ≤ resp.bufferLen := by
    obtain ⟨r1, w1, t1, tr1, e1, l1, hev, _⟩ := receive_spec hp fuel
    rw [e] at e1; cases e1
    have h1 : Ev.time t0 :: evs = Ev.time t1 :: tr1 := List.append_cancel_left (hl.symm.trans l1)
    have := received_le hev
    rw [← h1] at this
    exact this
  have hne : st ≠ .networkError := by
    rintro rfl
    obtain ⟨_, _, evs1, e1, l1, _, h1⟩ := C31_receive_error hp fuel
    rw [e] at e1; cases e1
    obtain rfl : Ev.time t0 :: evs = evs1 := List.append_cancel_left (hl.symm.trans l1)
    obtain ⟨pre, off, len, ret, data, h2, h3⟩ := h1 _ rfl
    rcases split_cons h2 with ⟨_, h4, _⟩ | ⟨pre', rfl, h4⟩
    · cases h4
    · have := (hdel _ _ _ _ _ _ h4).1
      omega
  obtain ⟨er, f1, f2, f3, _, _, f7, f6⟩ := returned_fed hp e hl hne
  rw [answer_of hp hreq hflag] at f1
  rw [hrt] at f1 f2 f6
  have hfv := feed_view http_machine_ok (answerTo head) (calls (.time t0 :: evs))
  rw [show feedAll http.toParser = feedAll httpParser from rfl, f1, f2] at hfv
  have hrun : ∀ p, absRun http (answerTo head) 0 (View.empty, .live http.init none) p = run (answerTo head) 0 (View.empty, .live .start none) p :=
    fun _ => rfl
  rw [hrun] at hfv
  by_cases hall : received evs = r.bytes
  · left
    obtain ⟨_, _, _, _, _, _, _, _, q1⟩ := response_run ok
    rw [hall, q1] at hfv
    rcases hfv with ⟨v, a, o, g1, _, _, g2, g3⟩ | ⟨v, er', g1, _⟩
    · obtain ⟨rfl, g1⟩ := Prod.mk.inj g1
      have her : er = .ok := congrArg Prod.snd g3
      subst her
      have hms : msgState (.time t0 :: evs) = .complete := by unfold msgState; rw [g2]; rfl
      have hst : st = .success := by
        rw [f6, if_neg (by decide), if_pos (.inl rfl), hms]; rfl
      have hg := got_of_final hp ok hflag e hl hne g2 (show r.bytes <+: received (.time t0 :: evs) by rw [hrt, hall]; exact List.prefix_refl _)
      exact ⟨hst, hall, { hg with reported := hg.reported }⟩
    · cases g1
  · right
    refine ⟨hall, ?_⟩
    obtain ⟨v, a, o, q1, q2⟩ := prefix_run ok hpre hall
    obtain ⟨p1, p2, p3, p4, p5, p6⟩ := part_run ok hpre
    rw [q1] at p1 p2 p3 p4 p5 p6
    dsimp only at p1 p2 p3 p4 p5 p6
    obtain ⟨_, f6, k1, k2, k3, k4, k5, k6, k7⟩ := returned_live hp hreq hflag e hl hne q1
    have hvn : v.state = .none ↔ received evs = [] := by
      constructor
      · intro h; exact Classical.byContradiction fun h' => p3 h' h
      · intro h
        rw [h] at q1
        have : (View.empty, St.live A.start none) = (v, .live a o) := q1
        cases this; rfl
    constructor
    · refine ⟨by rw [k1]; exact p1, ?_, k4, ?_, by rw [k5]; exact p5, by rw [k5, k6], fun hhd => k7 r (p2 hhd) p6 (stated_lt ok) hhd⟩
      · cases hcb : resp.pHeaderParsingCallback with
        | none => rw [k4 (by rw [hcb]; rfl)]; exact List.nil_prefix
        | some c => rw [k3 (by rw [hcb]; rfl)]; exact p4
      · rw [k2]
        have := p4.length_le
        simpa using this
    · by_cases hfull : (received evs).length = resp.bufferLen
      · left
        refine ⟨?_, hfull⟩
        have hpos := hp.pos
        have hnn : v.state ≠ .none := fun h => by rw [hvn.mp h] at hfull; simp at hfull; omega
        rw [f6, decide_eq_true hfull]
        rcases hm : v.state with _ | _ | _
        · exact absurd hm hnn
        · rfl
        · exact absurd hm q2
      · right
        have hst : st = (if received evs = [] then .noResponse else .partialResponse) := by
          rw [f6, decide_eq_false hfull]
          rcases hm : v.state with _ | _ | _
          · rw [if_pos (hvn.mp hm)]; rfl
          · rw [if_neg fun h => by rw [hvn.mpr h] at hm; cases hm]; rfl
          · exact absurd hm q2
        refine ⟨by omega, hst, h59 st resp' rfl ?_⟩
        rw [hst]
        split
        · exact .inr ⟨rfl, by omega⟩
        · exact .inl rfl

/-- **C68, with a cooperative peer, receiving a response that does not fit.** -/
theorem C68_peer_receive {w : World PLog σ} {head : Bool} {r : Response} (hp : RecvPre true httpParser cfg T recv resp rh b rb w.mem)
    (ok : r.Ok head) (hreq : ReqIs head (headerBlock w.mem rh)) (hflag : ¬ headersOnly resp.respOptionFlags)
    (hbig : resp.bufferLen < r.bytes.length) (hP : Peer request r.bytes got rest send recv resp) (hgot : got w.env = request)
    (hrest : rest w.env = r.bytes) {fuel : Nat} (hfuel : resp.bufferLen < fuel) :
    ∃ resp' w' evs, HTTPClient_ReceiveAndParseHttpResponse httpParser cfg fuel (some T) (some resp) (some rh) w =
        (.ok (.insufficientMemory, resp'), w') ∧
      w'.log = w.log ++ evs ∧ received evs = r.bytes.take resp.bufferLen ∧ rest w'.env = r.bytes.drop resp.bufferLen ∧ got w'.env = request ∧
      GotPart cfg r resp.pHeaderParsingCallback.isSome evs (received evs) w'.mem resp' := by
  have hx : ∀ s len, (recv s len).1 = ((recv s len).2.1.length : Int) := fun s len => (hP.delivers s len).1
  obtain ⟨res, w', t0, evs, e, hl, h68⟩ := C68_incomplete_receive hp ok hreq hflag fuel
  -- the relation of environment and trace
  have hk := (receive_keeps httpParser cfg hp.hasRecv (receiving_inv hP w.log) rh fuel w
    ⟨[], by simp, hgot, by simpa [received] using hrest, by intro pre off len ret data post h; cases pre <;> cases h⟩).1
  rw [e] at hk
  obtain ⟨evs', hl', g1, g2, g3⟩ := hk
  obtain rfl : Ev.time t0 :: evs = evs' := List.append_cancel_left (hl.symm.trans hl')
  -- every receive call delivers something
  have hne : ∀ pre off len ret data post, Ev.time t0 :: evs = pre ++ .recv off len ret data :: post → data ≠ [] := by
    intro pre off len ret data post he h0
    obtain ⟨_, _, evs1, e1, l1, h29, _⟩ := C29_receive_contiguous hp fuel
    rw [e] at e1; cases e1
    obtain rfl : Ev.time t0 :: evs = evs1 := List.append_cancel_left (hl.symm.trans l1)
    obtain ⟨_, _, evs1, e1, l1, h51⟩ := C51_one_response_partial hp fuel
    rw [e] at e1; cases e1
    obtain rfl : Ev.time t0 :: evs = evs1 := List.append_cancel_left (hl.symm.trans l1)
    obtain ⟨_, _, t1, evs1, e1, l1, hfa⟩ := receive_fedAt hp fuel
    rw [e] at e1; cases e1
    obtain ⟨ht, hev⟩ := List.cons.inj (List.append_cancel_left (hl.symm.trans l1))
    cases ht; cases hev
    rcases (g3 _ _ _ _ _ _ he).2.2 h0 with h1 | h1
    · have := (h29 _ _ _ _ _ _ he).2.2.1; omega
    · refine h51 _ _ _ _ _ _ he (fed_complete hp ok hreq hflag ?_ h1)
      rcases split_cons he with ⟨_, h2, _⟩ | ⟨pre', rfl, h2⟩
      · cases h2
      · exact hfa _ _ _ _ _ _ h2
  have hcount := recvs_le_received hne
  have hlen : (received (Ev.time t0 :: evs)).length ≤ resp.bufferLen := by
    obtain ⟨r1, w1, t1, tr1, e1, l1, hev, _⟩ := receive_spec hp fuel
    rw [e] at e1; cases e1
    have h1 : Ev.time t0 :: evs = Ev.time t1 :: tr1 := List.append_cancel_left (hl.symm.trans l1)
    rw [h1]
    exact received_le hev
  -- the call returns
  have hm : res ≠ .more := by
    rintro rfl
    have h1 := receive_more hp hx (fuel := fuel) (by rw [e])
    rw [e] at h1
    dsimp only at h1
    rw [hl, recvs_append, List.length_append] at h1
    omega
  have hnf : ∀ f, res ≠ .fault f := by
    obtain ⟨_, _, _, e1, _, _, h1, _⟩ := receive_no_send hp fuel
    rw [e] at e1; cases e1
    exact h1
  rcases res with ⟨st, resp'⟩ | f | _
  · have hdel : Delivers r.bytes evs := by
      intro pre off len ret data post he
      have := g3 (.time t0 :: pre) off len ret data post (by rw [he]; rfl)
      exact ⟨this.1, this.2.1⟩
    rcases h68 hdel _ _ rfl with ⟨_, h1, _⟩ | ⟨h1, h2, ⟨rfl, h3⟩ | ⟨_, _, pre, off, len, t, post, h3, _⟩⟩
    · have : (received (Ev.time t0 :: evs)).length = r.bytes.length := by rw [show received (Ev.time t0 :: evs) = r.bytes from h1]
      omega
    · have hr : received (Ev.time t0 :: evs) = r.bytes.take resp.bufferLen := by
        have h4 : received (Ev.time t0 :: evs) <+: r.bytes := ⟨_, g2⟩
        rw [List.prefix_iff_eq_take.mp h4, show (received (Ev.time t0 :: evs)).length = resp.bufferLen from h3]
      refine ⟨resp', w', _, e, hl, hr, ?_, g1, ?_⟩
      · rw [hr] at g2
        exact List.append_cancel_left (g2.trans (List.take_append_drop resp.bufferLen r.bytes).symm)
      · exact ⟨h2.1, h2.2, h2.3, h2.4, h2.5, h2.6, fun h => { h2.7 h with reported := (h2.7 h).reported }⟩
    · exact absurd rfl (hne (.time t0 :: pre) off len 0 [] _ (by rw [h3]; rfl))
  · exact absurd rfl (hnf f)
  · exact absurd rfl hm

/-- **C68, with a cooperative peer.** For every request that fits in its buffer, every well-formed response to it that does not fit in the response
buffer, and every peer that accepts the request and delivers this response, in pieces of any size and at any speed: HTTPClient_Send returns
HTTPInsufficientMemory, having received as much as fits; everything reported is part of the response, including all of the header section if that fits;
and nothing is lost: the transport has the rest still to deliver. -/
theorem C68_exchange {w : World PLog σ} {head : Bool} {r : Response}
    (hp : CallPre true httpParser cfg T send recv rh rb body n resp b w.mem)
    (ok : r.Ok head) (hreq : ReqIs head (headerBlock w.mem rh)) (hflag : ¬ headersOnly resp.respOptionFlags)
    (hbig : resp.bufferLen < r.bytes.length) (hfit' : (wireHeaders (headerBlock w.mem rh) n flags.toNat).length ≤ rh.bufferLen)
    (hP : Peer (wireRequest w.mem rh body n flags) r.bytes got rest send recv resp) (hgot : got w.env = [])
    {fuel : Nat} (hf1 : rh.bufferLen ≤ fuel) (hf2 : n ≤ fuel) (hf3 : resp.bufferLen < fuel) :
    ∃ rh' resp' w' evs, HTTPClient_Send httpParser cfg fuel (some T) (some rh) body n (some resp) flags w =
        (.ok (.insufficientMemory, some rh', some resp'), w') ∧
      w'.log = w.log ++ evs ∧ got w'.env = wireRequest w.mem rh body n flags ∧ rest w'.env = r.bytes.drop resp.bufferLen ∧
      accepted evs = wireRequest w.mem rh body n flags ∧ received evs = r.bytes.take resp.bufferLen ∧
      GotPart cfg r resp.pHeaderParsingCallback.isSome evs (received evs) w'.mem resp' := by
  have hblk : 16 ≤ (headerBlock w.mem rh).length := by
    have h1 := hp.reqLen; have h2 := hp.reqRoom; have h3 := hp.reqLe
    unfold headerBlock; rw [hp.reqBuf]; simp only [List.length_take]; omega
  have hP' : Peer (wireRequest w.mem rh body n flags) r.bytes got rest send recv (withClock resp) :=
    { hP with
      clock := by
        intro f hf
        refine hP.clock f ?_
        unfold withClock at hf
        cases hc : resp.getTime <;> rw [hc] at hf <;> first | exact hf | cases hf
      header := hP.header }
  have hwr : wireRequest w.mem rh body n flags ≠ [] := by
    intro h
    have h1 := congrArg List.length (wireHeaders_take hblk n flags.toNat)
    have h2 : wireHeaders (headerBlock w.mem rh) n flags.toNat = [] := by
      unfold wireRequest at h; exact (List.append_eq_nil_iff.mp h).1
    rw [h2] at h1
    simp at h1
    omega
  obtain ⟨h', hall⟩ := sendRequest_all (flags := flags) (withClock_ne resp) hp hfit' hP.accepts hf1 hf2
  have hk := (sendRequest_keeps (sending_inv hP' w.log) cfg hp.hasSend rh body n flags fuel w
    ⟨[], by simp, by simpa [accepted] using hgot, fun h => absurd h.symm hwr⟩).1
  rw [send_eq hp fuel]
  simp only [M.bind_apply]
  rcases sendRequest_spec (flags := flags) (withClock_ne resp) hp fuel with ⟨h1, h2⟩ | ⟨h1, q, s', m', rh', evs1, e, hfr, hb, hbl, hle, hB, hlen, h2⟩
  · omega
  rw [e] at hall hk
  dsimp only at hall
  rcases h2 with ⟨rfl, hph⟩ | ⟨rfl | rfl, _⟩
  · rw [e]
    simp only [if_true, M.bind_apply]
    obtain ⟨evs1', hl1, k1, k2⟩ := hk
    obtain rfl : evs1 = evs1' := List.append_cancel_left hl1
    obtain ⟨s1, s2, _, s4⟩ := sending_kinds hph.kinds
    have hacc := hph.all_ rfl
    have hr := recvPre_of hp hfr hb hbl hle hB hlen
    obtain ⟨resp', w', evs, e2, hl2, a1, a2, a3, a4⟩ := C68_peer_receive (w := ⟨s', m', w.log ++ evs1⟩) (r := r) (head := head) hr ok
      (by dsimp only; rw [hB]; exact reqIs_wire hblk _ _ hreq) hflag hbig hP' (k1.trans hacc) (k2 hacc) hf3
    obtain ⟨_, _, evs', e', hl', hns, _, _⟩ := receive_no_send (w := ⟨s', m', w.log ++ evs1⟩) hr fuel
    rw [e2] at e'; cases e'
    obtain rfl : evs = evs' := List.append_cancel_left (hl2.symm.trans hl')
    rw [e2]
    have hrec : received (evs1 ++ evs) = received evs := by rw [received_append, s4]; rfl
    have hrep : reported (evs1 ++ evs) = reported evs := by rw [reported_append, s2]; rfl
    refine ⟨rh', resp', w', evs1 ++ evs, rfl, by rw [hl2]; simp, a3, a2, ?_, by rw [hrec]; exact a1, ?_⟩
    · rw [accepted_append', (sends_nil hns).2, List.append_nil]; exact hacc
    · rw [hrec]
      exact ⟨a4.1, by rw [hrep]; exact a4.2, by rw [hrep]; exact a4.3, a4.4, a4.5, a4.6,
        fun h => { a4.7 h with reported := by rw [hrep]; exact (a4.7 h).reported }⟩
  · cases hall
  · cases hall

/-! ### Non-vacuity -/

/-- A response object in block `q` with room for 110 bytes. -/
def smallResp (q : Nat) : Resp PeerEnv := { peerResp q with bufferLen := 110 }

theorem smallCallPre (request answer : Bytes) (q : Nat) (hq : q = 0 ∨ q = 1) :
    CallPre true httpParser exCfg (peerT request answer) (peerSend request answer) peerRecv xReq 0 (some 2) 5 (smallResp q) q xMem :=
  { peerCallPre request answer q hq with
    buf := rfl
    pos := by simp [smallResp]
    room := by rcases hq with rfl | rfl <;> decide +kernel
    size := by show 110 < 2 ^ exCfg.sizeBits; decide }

theorem small_peer (request answer : Bytes) (q : Nat) :
    Peer request answer (fun s => s.2.1) (fun s => s.2.2) (peerSend request answer) peerRecv (smallResp q) :=
  have h := peer_ok request answer q
  ⟨h.accepts, h.takes, h.answers, h.delivers, h.progress, h.keeps, h.clock, h.header⟩

/-- All hypotheses of C68 hold for a PUT request and a chunked response of which the header section and a part of the body fit in the buffer. -/
example (q : Nat) (hq : q = 0 ∨ q = 1) (t : Nat) : exResponse.head.length < 110 ∧ 110 < exResponse.bytes.length ∧ ∃ rh' resp' w' evs,
    HTTPClient_Send httpParser exCfg 300 (some (peerT (wireRequest xMem xReq (some 2) 5 0) exResponse.bytes)) (some xReq) (some 2) 5
      (some (smallResp q)) 0 ⟨(t, [], []), xMem, []⟩ = (.ok (.insufficientMemory, some rh', some resp'), w') ∧ w'.log = evs ∧
    w'.env.2.2 = exResponse.bytes.drop 110 ∧ resp'.statusCode = 206 ∧ resp'.areHeadersComplete = 1 ∧
    bodyBytes w'.mem resp' <+: ascii "abcdefghijklmn" ++ [0] := by
  refine ⟨by decide +kernel, by decide +kernel, ?_⟩
  obtain ⟨rh', resp', w', evs, e, hl, _, h2, _, h4, h5⟩ := C68_exchange (w := (⟨(t, [], []), xMem, []⟩ : World PLog PeerEnv))
    (flags := 0) (fuel := 300) (smallCallPre _ _ q hq) exResponse_ok (show ¬ ascii "HEAD" <+: headerBlock xMem xReq by decide +kernel)
    (show ¬ ((0 : UInt32).toNat % 2 = 1) by decide) (show 110 < exResponse.bytes.length by decide +kernel)
    (show (wireHeaders (headerBlock xMem xReq) 5 (UInt32.toNat 0)).length ≤ 60 by decide +kernel) (small_peer _ _ q) rfl (by decide) (by decide)
    (show 110 < 300 by decide)
  have h6 := h5.head (by
    rw [h4, List.prefix_take_iff]
    exact ⟨⟨_, rfl⟩, (show exResponse.head.length ≤ 110 by decide +kernel)⟩)
  exact ⟨rh', resp', w', evs, e, by simpa using hl, h2, h6.statusCode, h6.complete, h5.body⟩

end CoreHttp.Props

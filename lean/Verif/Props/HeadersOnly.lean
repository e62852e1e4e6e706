import Verif.Ref.HeadersOnly
import Verif.Props.Exchange

/-!
# Property C66: round trip with HTTP_RESPONSE_DO_NOT_PARSE_BODY_FLAG

`Response`, `Response.head`, `Response.bytes` (Verif/Spec/Wire.lean): a response, its status line and header section, and all of it, as sent. The parser
is the reference parser.
-/

namespace CoreHttp.Props
open CoreHttp Spec Ref Machine
variable {σ : Type} {P : Parser} {cfg : Cfg} {T : Transport σ} {send : σ → Bytes → Int × σ} {recv : σ → Nat → Int × Bytes × σ}
  {resp : Resp σ} {rh : ReqHeaders} {b rb : Nat} {body : Option Nat} {n : Nat} {flags : UInt32} {request answer : Bytes} {got rest : σ → Bytes}

/-- What the application gets for the response `r` when it asked for the headers only: the header section is reported as sent; pBody and bodyLen
delimit what else has been received so far, undecoded (`got`: everything received). -/
structure GotHead (cfg : Cfg) (r : Response) (cb : Bool) (evs : List (Ev PLog)) (got : Bytes) (m : Mem) (resp' : Resp σ) : Prop where
  statusCode : resp'.statusCode = r.code
  reported : reported evs = if cb then r.fields.map fun f => (f.name, f.value, r.code) else []
  headerCount : resp'.headerCount = r.fields.length
  complete : resp'.areHeadersComplete = 1
  contentLength : r.statedLength < 2 ^ cfg.sizeBits → resp'.contentLength = r.statedLength
  close : bit resp'.respFlags 0 ↔ r.connection "close"
  keepAlive : bit resp'.respFlags 1 ↔ r.connection "keep-alive"
  /-- the buffer holds everything received, unmodified -/
  buffer : ∀ b, resp'.pBuffer = some b → (m b).take got.length = got
  pBody : resp'.pBody = some r.head.length
  bodyLen : resp'.bodyLen = got.length - r.head.length
  body : bodyBytes m resp' = got.drop r.head.length

theorem answer_flag (hflag : headersOnly resp.respOptionFlags) (head : Bool) : headersAnswer resp.respOptionFlags head = .pause := by
  unfold headersAnswer
  rw [if_pos ((headersOnly_iff _).mpr hflag)]

/-- **Headers only, receiving**, for a parser that reads header sections, whatever follows. For every well-formed response whose header section fits in the buffer (the body may be of any size), with
HTTP_RESPONSE_DO_NOT_PARSE_BODY_FLAG set, and every history in which the network delivers it (in pieces of any size, with any delays, by any transport and
clock): a call that returns has received the whole header section and returns HTTPSuccess with it; or the retry timeout expired before all of the header
section had arrived. -/
theorem headers_only_receive {w : World PLog σ} {head : Bool} {r : Response} {tail : Bytes} (hR : HeadReader P) (hp : RecvPre true P cfg T recv resp rh b rb w.mem)
    (ok : r.Ok head) (hflag : headersOnly resp.respOptionFlags) (hfit : r.head.length ≤ resp.bufferLen) (fuel : Nat) :
    ∃ res w' t0 evs, HTTPClient_ReceiveAndParseHttpResponse P cfg fuel (some T) (some resp) (some rh) w = (res, w') ∧
      w'.log = w.log ++ .time t0 :: evs ∧
      (Delivers (r.head ++ tail) evs → ∀ st resp', res = .ok (st, resp') →
        (st = .success ∧ r.head <+: received evs ∧
          GotHead cfg r resp.pHeaderParsingCallback.isSome evs (received evs) w'.mem resp') ∨
        (¬ r.head <+: received evs ∧
          ∃ pre off len t post, evs = pre ++ .recv off len 0 [] :: .time t :: post ∧ recvs post = [] ∧
            (resp.getTime.isZero = true ∨ cfg.recvTimeoutMs ≤ t - lastRecv t0 pre))) := by
  obtain ⟨res, w', t0, evs, e, hl, h59⟩ := C59_no_early_stop hp fuel
  refine ⟨res, w', t0, evs, e, hl, ?_⟩
  rintro hdel st resp' rfl
  have hrt : received (.time t0 :: evs) = received evs := rfl
  have hrp : reported (.time t0 :: evs) = reported evs := rfl
  have hpre := delivers_prefix evs hdel
  have hne : st ≠ .networkError := by
    rintro rfl
    obtain ⟨_, _, evs1, e1, l1, _, h1⟩ := C31_receive_error hp fuel
    rw [e] at e1; cases e1
    obtain rfl : Ev.time t0 :: evs = evs1 := List.append_cancel_left (hl.symm.trans l1)
    obtain ⟨pre, off, len, ret, data, h2, h3⟩ := h1 _ rfl
    rcases split_cons h2 with ⟨_, h4, _⟩ | ⟨pre', rfl, h4⟩
    · cases h4
    · have := (hdel _ _ _ _ _ _ h4).1
      omega
  obtain ⟨er, f1, f2, f3, _, _, f7, f6⟩ := returned_fed hp e hl hne
  rw [answer_flag hflag] at f1
  rw [hrt] at f1 f2 f6
  have hfl : (calls (.time t0 :: evs)).flatten = received evs := f2
  by_cases hall : r.head <+: received evs
  · left
    have hfv := hR.all_ (calls (.time t0 :: evs)) ok (by rw [hfl]; exact hall)
    rw [f1] at hfv
    obtain ⟨g2, her⟩ := hfv
    dsimp only at g2 her
    subst her
    have hst : st = .success := by rw [f6, if_pos rfl]
    refine ⟨hst, hall, ?_⟩
    obtain ⟨_, _, evs1, e1, l1, h1⟩ := C39_headers_reported hp fuel
    rw [e] at e1; cases e1
    obtain rfl : Ev.time t0 :: evs = evs1 := List.append_cancel_left (hl.symm.trans l1)
    obtain ⟨h39a, h39b, h39c⟩ := h1 _ _ rfl
    obtain ⟨h39c, h39d⟩ := h39c (.inl hne)
    obtain ⟨_, _, evs1, e1, l1, _, h1⟩ := C46_raw_body hp fuel hflag
    rw [e] at e1; cases e1
    obtain rfl : Ev.time t0 :: evs = evs1 := List.append_cancel_left (hl.symm.trans l1)
    obtain ⟨_, os, o, k1, k2, k3, k4, k5, k6, k7⟩ := h1 _ _ rfl (by rw [g2]; rfl)
    obtain ⟨_, _, evs1, e1, l1, h1⟩ := C49_content_length_partial hp fuel
    rw [e] at e1; cases e1
    obtain rfl : Ev.time t0 :: evs = evs1 := List.append_cancel_left (hl.symm.trans l1)
    have h49 := h1 _ _ rfl (UInt64.ofNat r.statedLength) (by rw [g2]; rfl)
    have hlt := stated_lt ok
    have hto : (UInt64.ofNat r.statedLength).toNat = r.statedLength := by
      rw [UInt64.toNat_ofNat']
      exact Nat.mod_eq_of_lt (Nat.lt_trans hlt (by decide))
    rw [hto] at h49
    have hloc : o.loc = r.head.length := by
      have h1 : (view (obsOf (.time t0 :: evs))).headersEnd = some o.loc := by
        obtain ⟨a, c, d, q, h2⟩ := k2
        rw [k1, view_snoc]; simp [View.step, h2]
      rw [g2] at h1
      exact (Option.some.inj h1).symm
    rw [hloc, hrt] at k5 k6
    rw [hloc] at k4
    rw [g2] at h39c h39d f7 h39a
    rw [hrp] at h39a h39b
    have hb0 : ∀ a c, (bit (connFlags a c) 0 ↔ a = true) ∧ (bit (connFlags a c) 1 ↔ c = true) := by
      intro a c; unfold bit; cases a <;> cases c <;> exact ⟨by decide, by decide⟩
    refine ⟨h39d, ?_, ?_, h49.1, fun h => h49.2.1 h (by omega), ?_, ?_, ?_, k4, k5, k6⟩
    · cases hcb : resp.pHeaderParsingCallback.isSome with
      | true => rw [if_pos rfl, h39a rfl hcb]; rfl
      | false => rw [if_neg (by decide)]; exact h39b rfl (by simpa using hcb)
    · rw [h39c]; simp [headView]
    · rw [f7, (hb0 _ _).1]; exact any_conn r "close"
    · rw [f7, (hb0 _ _).2]; exact any_conn r "keep-alive"
    · intro b' hb'
      rw [(receive_setUp hp e).1, hp.buf] at hb'
      cases hb'
      rw [hrt] at k7
      refine List.ext_getElem? fun i => ?_
      rw [List.getElem?_take]
      split
      · exact k7 i ‹_›
      · exact (List.getElem?_eq_none (by omega)).symm
  · right
    refine ⟨hall, ?_⟩
    have hph : received evs <+: r.head := by
      rcases List.prefix_or_prefix_of_prefix hpre (List.prefix_append r.head tail) with h | h
      · exact h
      · exact absurd h hall
    have hnh : received evs ≠ r.head := fun h => hall (by rw [h]; exact List.prefix_refl _)
    have hlen : (received evs).length < r.head.length := by
      rcases Nat.lt_or_ge (received evs).length r.head.length with h | h
      · exact h
      · exact absurd (hph.eq_of_length_le h) hnh
    have hfv := hR.part (calls (.time t0 :: evs)) ok (by rw [hfl]; exact hph) (by rw [hfl]; exact hnh)
    rw [f1] at hfv
    obtain ⟨g2, her⟩ := hfv
    dsimp only at g2 her
    subst her
    rw [if_neg (by decide), if_pos (.inl rfl)] at f6
    obtain ⟨_, _, t1, evs1, e1, l1, h59'⟩ := C59_no_early_success hp fuel
    rw [e] at e1; cases e1
    obtain ⟨ht, hev⟩ := List.cons.inj (List.append_cancel_left (hl.symm.trans l1))
    cases ht; cases hev
    by_cases hs : st = .success
    · subst hs
      exact h59' _ rfl (show (view (obsOf (.time t0 :: evs))).contentLength = none by exact g2) (by omega)
    · refine h59 st resp' rfl ?_
      rw [decide_eq_false (by omega : ¬ (received evs).length = resp.bufferLen), decide_eq_true ((headersOnly_iff _).mpr hflag)] at f6
      rcases hm : msgState (.time t0 :: evs) with _ | _ | _ <;> rw [hm] at f6
      · exact .inr ⟨f6, by omega⟩
      · exact absurd f6 hs
      · exact absurd f6 hs

/-- With a cooperative peer, receiving. -/
theorem headers_only_peer {w : World PLog σ} {head : Bool} {r : Response} {tail : Bytes} (hR : HeadReader P) (hp : RecvPre true P cfg T recv resp rh b rb w.mem)
    (ok : r.Ok head) (hflag : headersOnly resp.respOptionFlags)
    (hfit : r.head.length ≤ resp.bufferLen) (hP : Peer request (r.head ++ tail) got rest send recv resp) (hgot : got w.env = request)
    (hrest : rest w.env = (r.head ++ tail)) {fuel : Nat} (hfuel : resp.bufferLen < fuel) :
    ∃ resp' w' evs, HTTPClient_ReceiveAndParseHttpResponse P cfg fuel (some T) (some resp) (some rh) w = (.ok (.success, resp'), w') ∧
      w'.log = w.log ++ evs ∧ r.head <+: received evs ∧ received evs ++ rest w'.env = (r.head ++ tail) ∧ got w'.env = request ∧
      GotHead cfg r resp.pHeaderParsingCallback.isSome evs (received evs) w'.mem resp' := by
  have hx : ∀ s len, (recv s len).1 = ((recv s len).2.1.length : Int) := fun s len => (hP.delivers s len).1
  obtain ⟨res, w', t0, evs, e, hl, h66⟩ := headers_only_receive (tail := tail) hR hp ok hflag hfit fuel
  -- the relation of environment and trace
  have hk := (receive_keeps P cfg hp.hasRecv (receiving_inv hP w.log) rh fuel w
    ⟨[], by simp, hgot, by simpa [received] using hrest, by intro pre off len ret data post h; cases pre <;> cases h⟩).1
  rw [e] at hk
  obtain ⟨evs', hl', g1, g2, g3⟩ := hk
  obtain rfl : Ev.time t0 :: evs = evs' := List.append_cancel_left (hl.symm.trans hl')
  obtain ⟨_, _, evs1, e1, l1, h29, _⟩ := C29_receive_contiguous hp fuel
  rw [e] at e1; cases e1
  obtain rfl : Ev.time t0 :: evs = evs1 := List.append_cancel_left (hl.symm.trans l1)
  -- every receive call delivers something
  have hne : ∀ pre off len ret data post, Ev.time t0 :: evs = pre ++ .recv off len ret data :: post → data ≠ [] := by
    intro pre off len ret data post he h0
    obtain ⟨_, _, t1, evs1, e1, l1, hfa⟩ := receive_fedAt hp fuel
    rw [e] at e1; cases e1
    obtain ⟨ht, hev⟩ := List.cons.inj (List.append_cancel_left (hl.symm.trans l1))
    cases ht; cases hev
    rcases (g3 _ _ _ _ _ _ he).2.2 h0 with h1 | h1
    · have := (h29 _ _ _ _ _ _ he).2.2.1; omega
    · rcases split_cons he with ⟨_, h2, _⟩ | ⟨pre', rfl, h2⟩
      · cases h2
      · obtain ⟨f1, f2, f3⟩ := hfa _ _ _ _ _ _ h2
        rw [policy_eq, answer_flag hflag] at f2 f3
        have hfl : (calls ([.time t0] ++ pre')).flatten = r.head ++ tail := by rw [calls_flatten, f1]; exact h1
        have hfv := hR.all_ (calls ([.time t0] ++ pre')) ok (by rw [hfl]; exact List.prefix_append _ _)
        rw [hfv.2] at f3; cases f3
  have hcount := recvs_le_received hne
  have hlen : (received (Ev.time t0 :: evs)).length ≤ resp.bufferLen := by
    obtain ⟨r1, w1, t1, tr1, e1, l1, hev, _⟩ := receive_spec hp fuel
    rw [e] at e1; cases e1
    have h1 : Ev.time t0 :: evs = Ev.time t1 :: tr1 := List.append_cancel_left (hl.symm.trans l1)
    rw [h1]
    exact received_le hev
  -- the call returns
  have hm : res ≠ .more := by
    rintro rfl
    have h1 := receive_more hp hx (fuel := fuel) (by rw [e])
    rw [e] at h1
    dsimp only at h1
    rw [hl, recvs_append, List.length_append] at h1
    omega
  have hnf : ∀ f, res ≠ .fault f := by
    obtain ⟨_, _, _, e1, _, _, h1, _⟩ := receive_no_send hp fuel
    rw [e] at e1; cases e1
    exact h1
  rcases res with ⟨st, resp'⟩ | f | _
  · have hdel : Delivers (r.head ++ tail) evs := by
      intro pre off len ret data post he
      have := g3 (.time t0 :: pre) off len ret data post (by rw [he]; rfl)
      exact ⟨this.1, this.2.1⟩
    rcases h66 hdel _ _ rfl with ⟨rfl, h1, h2⟩ | ⟨_, pre, off, len, t, post, h1, _⟩
    · exact ⟨resp', w', _, e, hl, h1, g2, g1, { h2 with reported := h2.reported }⟩
    · exact absurd rfl (hne (.time t0 :: pre) off len 0 [] _ (by rw [h1]; rfl))
  · exact absurd rfl (hnf f)
  · exact absurd rfl hm

/-- With a cooperative peer, the whole exchange. -/
theorem headers_only_exchange {w : World PLog σ} {head : Bool} {r : Response} {tail : Bytes} (hR : HeadReader P)
    (hp : CallPre true P cfg T send recv rh rb body n resp b w.mem)
    (ok : r.Ok head) (hflag : headersOnly resp.respOptionFlags)
    (hfit : r.head.length ≤ resp.bufferLen) (hfit' : (wireHeaders (headerBlock w.mem rh) n flags.toNat).length ≤ rh.bufferLen)
    (hP : Peer (wireRequest w.mem rh body n flags) (r.head ++ tail) got rest send recv resp) (hgot : got w.env = [])
    {fuel : Nat} (hf1 : rh.bufferLen ≤ fuel) (hf2 : n ≤ fuel) (hf3 : resp.bufferLen < fuel) :
    ∃ rh' resp' w' evs, HTTPClient_Send P cfg fuel (some T) (some rh) body n (some resp) flags w = (.ok (.success, some rh', some resp'), w') ∧
      w'.log = w.log ++ evs ∧ got w'.env = wireRequest w.mem rh body n flags ∧
      bodyBytes w'.mem resp' ++ rest w'.env = tail ∧
      GotHead cfg r resp.pHeaderParsingCallback.isSome evs (received evs) w'.mem resp' := by
  have hblk : 16 ≤ (headerBlock w.mem rh).length := by
    have h1 := hp.reqLen; have h2 := hp.reqRoom; have h3 := hp.reqLe
    unfold headerBlock; rw [hp.reqBuf]; simp only [List.length_take]; omega
  have hP' : Peer (wireRequest w.mem rh body n flags) (r.head ++ tail) got rest send recv (withClock resp) :=
    { hP with
      clock := by
        intro f hf
        refine hP.clock f ?_
        unfold withClock at hf
        cases hc : resp.getTime <;> rw [hc] at hf <;> first | exact hf | cases hf
      header := hP.header }
  have hwr : wireRequest w.mem rh body n flags ≠ [] := by
    intro h
    have h1 := congrArg List.length (wireHeaders_take hblk n flags.toNat)
    have h2 : wireHeaders (headerBlock w.mem rh) n flags.toNat = [] := by
      unfold wireRequest at h; exact (List.append_eq_nil_iff.mp h).1
    rw [h2] at h1
    simp at h1
    omega
  obtain ⟨h', hall⟩ := sendRequest_all (flags := flags) (withClock_ne resp) hp hfit' hP.accepts hf1 hf2
  have hk := (sendRequest_keeps (sending_inv hP' w.log) cfg hp.hasSend rh body n flags fuel w
    ⟨[], by simp, by simpa [accepted] using hgot, fun h => absurd h.symm hwr⟩).1
  rw [send_eq hp fuel]
  simp only [M.bind_apply]
  rcases sendRequest_spec (flags := flags) (withClock_ne resp) hp fuel with ⟨h1, h2⟩ | ⟨h1, q, s', m', rh', evs1, e, hfr, hb, hbl, hle, hB, hlen, h2⟩
  · omega
  rw [e] at hall hk
  dsimp only at hall
  rcases h2 with ⟨rfl, hph⟩ | ⟨rfl | rfl, _⟩
  · rw [e]
    simp only [if_true, M.bind_apply]
    obtain ⟨evs1', hl1, k1, k2⟩ := hk
    obtain rfl : evs1 = evs1' := List.append_cancel_left hl1
    obtain ⟨s1, s2, _, s4⟩ := sending_kinds hph.kinds
    have hacc := hph.all_ rfl
    have hr := recvPre_of hp hfr hb hbl hle hB hlen
    obtain ⟨resp', w', evs, e2, hl2, a1, a2, a3, a4⟩ := headers_only_peer (w := ⟨s', m', w.log ++ evs1⟩) (r := r) (head := head) (tail := tail) hR hr ok
      hflag hfit hP' (k1.trans hacc) (k2 hacc) hf3
    rw [e2]
    have hrec : received (evs1 ++ evs) = received evs := by rw [received_append, s4]; rfl
    refine ⟨rh', resp', w', evs1 ++ evs, rfl, by rw [hl2]; simp, a3, ?_, ?_⟩
    · obtain ⟨t, ht⟩ := a1
      rw [a4.body, ← ht, List.drop_left]
      rw [← ht, List.append_assoc] at a2
      exact List.append_cancel_left a2
    · rw [hrec]
      exact { a4 with reported := by rw [reported_append, s2]; exact a4.reported }
  · cases hall
  · cases hall

/-- **C66, receiving.** For every well-formed response whose header section fits in the buffer (the body may be of any size), with
HTTP_RESPONSE_DO_NOT_PARSE_BODY_FLAG set, and every history in which the network delivers it (in pieces of any size, with any delays, by any transport and
clock): a call that returns has received the whole header section and returns HTTPSuccess with it; or the retry timeout expired before all of the header
section had arrived. -/
theorem C66_headers_only_receive {w : World PLog σ} {head : Bool} {r : Response} (hp : RecvPre true httpParser cfg T recv resp rh b rb w.mem)
    (ok : r.Ok head) (hflag : headersOnly resp.respOptionFlags) (hfit : r.head.length ≤ resp.bufferLen) (fuel : Nat) :
    ∃ res w' t0 evs, HTTPClient_ReceiveAndParseHttpResponse httpParser cfg fuel (some T) (some resp) (some rh) w = (res, w') ∧
      w'.log = w.log ++ .time t0 :: evs ∧
      (Delivers r.bytes evs → ∀ st resp', res = .ok (st, resp') →
        (st = .success ∧ r.head <+: received evs ∧
          GotHead cfg r resp.pHeaderParsingCallback.isSome evs (received evs) w'.mem resp') ∨
        (¬ r.head <+: received evs ∧
          ∃ pre off len t post, evs = pre ++ .recv off len 0 [] :: .time t :: post ∧ recvs post = [] ∧
            (resp.getTime.isZero = true ∨ cfg.recvTimeoutMs ≤ t - lastRecv t0 pre))) :=
  headers_only_receive (tail := r.content.bytes) http_headReader hp ok hflag hfit fuel

/-- **C66, with a cooperative peer, receiving.** -/
theorem C66_peer_receive {w : World PLog σ} {head : Bool} {r : Response} (hp : RecvPre true httpParser cfg T recv resp rh b rb w.mem)
    (ok : r.Ok head) (hflag : headersOnly resp.respOptionFlags)
    (hfit : r.head.length ≤ resp.bufferLen) (hP : Peer request r.bytes got rest send recv resp) (hgot : got w.env = request)
    (hrest : rest w.env = r.bytes) {fuel : Nat} (hfuel : resp.bufferLen < fuel) :
    ∃ resp' w' evs, HTTPClient_ReceiveAndParseHttpResponse httpParser cfg fuel (some T) (some resp) (some rh) w = (.ok (.success, resp'), w') ∧
      w'.log = w.log ++ evs ∧ r.head <+: received evs ∧ received evs ++ rest w'.env = r.bytes ∧ got w'.env = request ∧
      GotHead cfg r resp.pHeaderParsingCallback.isSome evs (received evs) w'.mem resp' :=
  headers_only_peer (tail := r.content.bytes) http_headReader hp ok hflag hfit hP hgot hrest hfuel

/-- **C66, with a cooperative peer.** For every request that fits in its buffer, every well-formed response to it whose header section fits in the response
buffer, and every peer that accepts the request and delivers this response, in pieces of any size and at any speed: with
HTTP_RESPONSE_DO_NOT_PARSE_BODY_FLAG set, HTTPClient_Send returns HTTPSuccess, the header section is reported as the peer sent it, and nothing of the
body is lost: what has been received of it is what pBody and bodyLen delimit, and the transport delivers the rest. -/
theorem C66_exchange {w : World PLog σ} {head : Bool} {r : Response}
    (hp : CallPre true httpParser cfg T send recv rh rb body n resp b w.mem)
    (ok : r.Ok head) (hflag : headersOnly resp.respOptionFlags)
    (hfit : r.head.length ≤ resp.bufferLen) (hfit' : (wireHeaders (headerBlock w.mem rh) n flags.toNat).length ≤ rh.bufferLen)
    (hP : Peer (wireRequest w.mem rh body n flags) r.bytes got rest send recv resp) (hgot : got w.env = [])
    {fuel : Nat} (hf1 : rh.bufferLen ≤ fuel) (hf2 : n ≤ fuel) (hf3 : resp.bufferLen < fuel) :
    ∃ rh' resp' w' evs, HTTPClient_Send httpParser cfg fuel (some T) (some rh) body n (some resp) flags w = (.ok (.success, some rh', some resp'), w') ∧
      w'.log = w.log ++ evs ∧ got w'.env = wireRequest w.mem rh body n flags ∧
      bodyBytes w'.mem resp' ++ rest w'.env = r.content.bytes ∧
      GotHead cfg r resp.pHeaderParsingCallback.isSome evs (received evs) w'.mem resp' :=
  headers_only_exchange (tail := r.content.bytes) http_headReader hp ok hflag hfit hfit' hP hgot hf1 hf2 hf3

/-! ### Non-vacuity -/

/-- A response object in block `q` with room for 100 bytes and HTTP_RESPONSE_DO_NOT_PARSE_BODY_FLAG set. -/
def flagResp (q : Nat) : Resp PeerEnv := { peerResp q with bufferLen := 100, respOptionFlags := 1 }

theorem flagCallPre (request answer : Bytes) (q : Nat) (hq : q = 0 ∨ q = 1) :
    CallPre true httpParser exCfg (peerT request answer) (peerSend request answer) peerRecv xReq 0 (some 2) 5 (flagResp q) q xMem :=
  { peerCallPre request answer q hq with
    buf := rfl
    pos := by simp [flagResp]
    room := by rcases hq with rfl | rfl <;> decide +kernel
    size := by show 100 < 2 ^ exCfg.sizeBits; decide }

theorem flag_peer (request answer : Bytes) (q : Nat) :
    Peer request answer (fun s => s.2.1) (fun s => s.2.2) (peerSend request answer) peerRecv (flagResp q) :=
  have h := peer_ok request answer q
  ⟨h.accepts, h.takes, h.answers, h.delivers, h.progress, h.keeps, h.clock, h.header⟩

/-- All hypotheses of C66 hold for a PUT request and a chunked response that is larger than the response buffer. -/
example (q : Nat) (hq : q = 0 ∨ q = 1) (t : Nat) : 100 < exResponse.bytes.length ∧ ∃ rh' resp' w' evs,
    HTTPClient_Send httpParser exCfg 300 (some (peerT (wireRequest xMem xReq (some 2) 5 0) exResponse.bytes)) (some xReq) (some 2) 5
      (some (flagResp q)) 0 ⟨(t, [], []), xMem, []⟩ = (.ok (.success, some rh', some resp'), w') ∧ w'.log = evs ∧
    w'.env.2.1 = wireRequest xMem xReq (some 2) 5 0 ∧ resp'.headerCount = 3 ∧ resp'.statusCode = 206 ∧
    bodyBytes w'.mem resp' ++ w'.env.2.2 = ascii "3\r\nabc\r\n0B;a=b\r\ndefghijklmn\r\n1\r\n\x00\r\n00\r\nT1: v1\r\nT2: v2\r\n\r\n" := by
  refine ⟨by decide +kernel, ?_⟩
  obtain ⟨rh', resp', w', evs, e, hl, h1, h2, h3⟩ := C66_exchange (w := (⟨(t, [], []), xMem, []⟩ : World PLog PeerEnv))
    (flags := 0) (fuel := 300) (flagCallPre _ _ q hq) exResponse_ok (show (1 : UInt32).toNat % 2 = 1 by decide)
    (show exResponse.head.length ≤ 100 by decide +kernel)
    (show (wireHeaders (headerBlock xMem xReq) 5 (UInt32.toNat 0)).length ≤ 60 by decide +kernel)
    (flag_peer _ _ q) rfl (by decide) (by decide)
    (show 100 < 300 by decide)
  refine ⟨rh', resp', w', evs, e, by simpa using hl, h1, h3.headerCount, h3.statusCode, ?_⟩
  rw [h2]; decide +kernel

end CoreHttp.Props

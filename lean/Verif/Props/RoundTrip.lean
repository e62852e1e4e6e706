import Verif.Ref.RoundTripPrefix
import Verif.Props.SendRecv

/-!
# Property C58: round trip

`Response` (Verif/Spec/Wire.lean) is a response, `Response.bytes` what it is on the wire, `Response.Ok` says it is well formed; `Delivers` says that the
network delivers these bytes, in pieces of any size. The parser is the reference parser.
-/

namespace CoreHttp.Props
open CoreHttp Spec Ref Machine
variable {σ : Type} {cfg : Cfg} {T : Transport σ} {send : σ → Bytes → Int × σ} {recv : σ → Nat → Int × Bytes × σ}
  {resp : Resp σ} {rh : ReqHeaders} {b rb : Nat} {body : Option Nat} {n : Nat} {flags : UInt32}

theorem delivers_prefix {wire : Bytes} (evs : List (Ev PLog)) : Delivers wire evs → received evs <+: wire := by
  refine snocInduction (Q := fun evs => Delivers wire evs → received evs <+: wire) (fun _ => List.nil_prefix) ?_ evs
  intro es e ih h
  have h' : Delivers wire es := fun pre off len ret data post he => h pre off len ret data (post ++ [e]) (by rw [he]; simp)
  rw [received_append]
  cases e with
  | recv off len ret data => simpa [received] using (h es off len ret data [] rfl).2
  | _ => simpa [received] using ih h'

/-- The request is a HEAD request (`head`), or does not begin with "HEAD" at all. -/
def ReqIs (head : Bool) (block : Bytes) : Prop := if head then isHeadRequest block else ¬ ascii "HEAD" <+: block

/-- What the application gets for the response `r`: everything is reported as sent. `evs` is the trace, `m` the memory on return. -/
structure Got (cfg : Cfg) (r : Response) (cb : Bool) (evs : List (Ev PLog)) (m : Mem) (resp' : Resp σ) : Prop where
  statusCode : resp'.statusCode = r.code
  /-- the header callback: the fields in order, and all trailer fields but the last (C52) -/
  reported : reported evs = if cb then (r.fields ++ r.content.trailers.dropLast).map fun f => (f.name, f.value, r.code) else []
  headerCount : resp'.headerCount = r.fields.length + (r.content.trailers.length - 1)
  body : bodyBytes m resp' = r.content.data
  bodyLen : resp'.bodyLen = r.content.data.length
  complete : resp'.areHeadersComplete = 1
  contentLength : r.statedLength < 2 ^ cfg.sizeBits → resp'.contentLength = r.statedLength
  close : bit resp'.respFlags 0 ↔ r.connection "close"
  keepAlive : bit resp'.respFlags 1 ↔ r.connection "keep-alive"
  /-- the buffer begins with the status line and header section, as sent -/
  head : ∀ b, resp'.pBuffer = some b → (m b).take r.head.length = r.head
  bodyPlace : ∀ q, resp'.pBody = some q → r.head.length ≤ q

/-- What a response object is set up with is never changed by receiving. -/
theorem receive_setUp {w : World PLog σ} (hp : RecvPre strict P cfg T recv resp rh b rb w.mem) {fuel : Nat} {st : Status} {resp' : Resp σ}
    {w' : World PLog σ} (e : HTTPClient_ReceiveAndParseHttpResponse P cfg fuel (some T) (some resp) (some rh) w = (.ok (st, resp'), w')) :
    SetUp resp resp' := by
  obtain ⟨r, w1, t0, tr, e1, _, _, _, h⟩ := receive_spec hp fuel
  rw [e] at e1; cases e1
  rcases h with ⟨h, _⟩ | ⟨lst, total, h, st, resp', h0, _, hF, hD⟩
  · cases h
  cases h0
  rcases returned hF hD with ⟨_, _, rfl, _⟩ | ⟨ph, base, lo, ht, _, _, h1, _⟩
  · exact ⟨rfl, rfl, rfl, rfl, rfl⟩
  · have hs : SetUp resp h.resp := ⟨ht.core.pbuf, ht.core.bufLen, ht.core.cb, ht.core.gt, ht.core.opt⟩
    rw [h1]
    split
    · exact hs
    · exact hs

theorem stated_lt {head : Bool} {r : Response} (ok : r.Ok head) : r.statedLength < 18446744073709551615 := by
  have h0 : r.lengths = [] → r.statedLength < 18446744073709551615 := by
    intro h; unfold Response.statedLength; rw [h]; decide
  have h1 : ∀ n, r.SaysLength n → r.statedLength < 18446744073709551615 := by
    rintro n ⟨⟨f, h1, h2⟩, h3, _⟩; unfold Response.statedLength; rw [h1]; simp [h2, h3]
  have hok := ok.content
  rcases hc : r.content with _ | d | ⟨cs, ls, le, ts⟩ <;> rw [hc] at hok <;> dsimp only at hok
  · exact hok.2.elim h0 fun ⟨n, h⟩ => h1 n h
  · exact h1 _ hok.2
  · exact h0 hok.2.1

theorem any_conn (r : Response) (x : String) : r.fields.any (isConn x) = true ↔ r.connection x := by
  rw [List.any_eq_true]
  constructor
  · rintro ⟨f, h1, h2⟩; exact ⟨f, h1, by simpa [isConn] using h2⟩
  · rintro ⟨f, h1, h2⟩; exact ⟨f, h1, by simpa [isConn] using h2⟩

theorem answer_of {w : World PLog σ} {head : Bool} (hp : RecvPre true P cfg T recv resp rh b rb w.mem)
    (hreq : ReqIs head (headerBlock w.mem rh)) (hflag : ¬ headersOnly resp.respOptionFlags) :
    headersAnswer resp.respOptionFlags (startsHead w.mem rb) = answerTo head := by
  have hblk : headerBlock w.mem rh = (w.mem rb).take rh.headersLen := by unfold headerBlock; rw [hp.reqBuf]
  have h4 : (headerBlock w.mem rh).take 4 = (w.mem rb).take 4 := by
    rw [hblk, List.take_take, Nat.min_eq_left (by have := hp.reqLen; omega)]
  have hs : startsHead w.mem rb = head := by
    unfold startsHead
    rw [← h4]
    cases head with
    | true =>
      have : ascii "HEAD " <+: headerBlock w.mem rh := hreq
      obtain ⟨t, ht⟩ := this
      have h5 : (headerBlock w.mem rh).take 4 = ascii "HEAD" := by rw [← ht]; rfl
      rw [h5]; decide
    | false =>
      have hno : ¬ ascii "HEAD" <+: headerBlock w.mem rh := hreq
      have : ¬ (headerBlock w.mem rh).take 4 = ascii "HEAD" := by
        intro h; apply hno; rw [← h]; exact List.take_prefix _ _
      simpa using this
  rw [hs]
  unfold headersAnswer
  rw [if_neg (fun h => hflag ((headersOnly_iff _).mp h))]
  cases head <;> rfl

/-- What the application gets when the parser has found exactly the response `r`. -/
theorem got_of_final {w w' : World PLog σ} {head : Bool} {r : Response} {fuel : Nat} {st : Status} {resp' : Resp σ} {evs : List (Ev PLog)}
    (hp : RecvPre true P cfg T recv resp rh b rb w.mem) (ok : r.Ok head) (hflag : ¬ headersOnly resp.respOptionFlags)
    (e : HTTPClient_ReceiveAndParseHttpResponse P cfg fuel (some T) (some resp) (some rh) w = (.ok (st, resp'), w'))
    (hl : w'.log = w.log ++ evs) (hne : st ≠ .networkError)
    (g2 : view (obsOf evs) = finalView r (r.fields.any (isConn "close")) (r.fields.any (isConn "keep-alive"))) (hall : r.bytes <+: received evs) :
    Got cfg r resp.pHeaderParsingCallback.isSome evs w'.mem resp' := by
  obtain ⟨er, _, _, _, _, _, f7, _⟩ := returned_fed hp e hl hne
  obtain ⟨_, _, evs1, e1, l1, h1⟩ := C39_headers_reported hp fuel
  rw [e] at e1; cases e1
  obtain rfl : evs = evs1 := List.append_cancel_left (hl.symm.trans l1)
  obtain ⟨h39a, h39b, h39c⟩ := h1 _ _ rfl
  obtain ⟨h39c, h39d⟩ := h39c (.inl hne)
  obtain ⟨_, _, evs1, e1, l1, h1⟩ := C40_body_assembled hp fuel hflag
  rw [e] at e1; cases e1
  obtain rfl : evs = evs1 := List.append_cancel_left (hl.symm.trans l1)
  have h40 := h1 _ _ rfl (.inl hne)
  obtain ⟨_, _, evs1, e1, l1, h1⟩ := C49_content_length_partial hp fuel
  rw [e] at e1; cases e1
  obtain rfl : evs = evs1 := List.append_cancel_left (hl.symm.trans l1)
  have h49 := h1 _ _ rfl (UInt64.ofNat r.statedLength) (by rw [g2]; rfl)
  have hlt := stated_lt ok
  have hto : (UInt64.ofNat r.statedLength).toNat = r.statedLength := by
    rw [UInt64.toNat_ofNat']
    exact Nat.mod_eq_of_lt (Nat.lt_trans hlt (by decide))
  rw [hto] at h49
  obtain ⟨_, _, evs1, e1, l1, h1⟩ := C41_header_section_kept hp fuel
  rw [e] at e1; cases e1
  obtain rfl : evs = evs1 := List.append_cancel_left (hl.symm.trans l1)
  have h41 := h1 _ _ rfl (by rw [g2]; exact Nat.le_refl _) r.head.length (by rw [g2]; rfl)
  rw [g2] at h39c h39d h40 f7 h39a
  have hb0 : ∀ a c, (bit (connFlags a c) 0 ↔ a = true) ∧ (bit (connFlags a c) 1 ↔ c = true) := by
    intro a c; unfold bit; cases a <;> cases c <;> exact ⟨by decide, by decide⟩
  refine ⟨h39d, ?_, ?_, h40.1, h40.2, h49.1, fun h => h49.2.1 h (by omega), ?_, ?_, ?_, h41.2.2⟩
  · cases hcb : resp.pHeaderParsingCallback.isSome with
    | true =>
      rw [if_pos rfl, h39a rfl hcb]
      simp [finalView, List.map_dropLast]
    | false => rw [if_neg (by decide)]; exact h39b rfl (by simpa using hcb)
  · rw [h39c]; simp [finalView]
  · rw [f7, (hb0 _ _).1]; exact any_conn r "close"
  · rw [f7, (hb0 _ _).2]; exact any_conn r "keep-alive"
  · intro b' hb'
    rw [(receive_setUp hp e).1, hp.buf] at hb'
    cases hb'
    obtain ⟨t, ht⟩ := hall
    rw [h41.2.1, ← ht, Response.bytes, List.append_assoc, List.take_left]

/-- **C58, receiving.** For every well-formed response that fits in the buffer, and every history in which the network delivers it (in pieces of any size,
with any delays, by any transport and clock): a call that returns returns HTTPSuccess with everything as sent; or the retry timeout expired before
all of the response had arrived. -/
theorem C58_round_trip_receive {w : World PLog σ} {head : Bool} {r : Response} (hp : RecvPre true httpParser cfg T recv resp rh b rb w.mem)
    (ok : r.Ok head) (hreq : ReqIs head (headerBlock w.mem rh)) (hflag : ¬ headersOnly resp.respOptionFlags)
    (hfit : r.bytes.length ≤ resp.bufferLen) (fuel : Nat) :
    ∃ res w' t0 evs, HTTPClient_ReceiveAndParseHttpResponse httpParser cfg fuel (some T) (some resp) (some rh) w = (res, w') ∧
      w'.log = w.log ++ .time t0 :: evs ∧
      (Delivers r.bytes evs → ∀ st resp', res = .ok (st, resp') →
        (st = .success ∧ received evs = r.bytes ∧ Got cfg r resp.pHeaderParsingCallback.isSome evs w'.mem resp') ∨
        ((st = .partialResponse ∨ st = .noResponse) ∧ received evs ≠ r.bytes ∧
          ∃ pre off len t post, evs = pre ++ .recv off len 0 [] :: .time t :: post ∧ recvs post = [] ∧
            (resp.getTime.isZero = true ∨ cfg.recvTimeoutMs ≤ t - lastRecv t0 pre))) := by
  obtain ⟨res, w', t0, evs, e, hl, h59⟩ := C59_no_early_stop hp fuel
  refine ⟨res, w', t0, evs, e, hl, ?_⟩
  rintro hdel st resp' rfl
  have hrt : received (.time t0 :: evs) = received evs := rfl
  have hrp : reported (.time t0 :: evs) = reported evs := rfl
  have hpre := delivers_prefix evs hdel
  have hne : st ≠ .networkError := by
    rintro rfl
    obtain ⟨_, _, evs1, e1, l1, _, h1⟩ := C31_receive_error hp fuel
    rw [e] at e1; cases e1
    obtain rfl : Ev.time t0 :: evs = evs1 := List.append_cancel_left (hl.symm.trans l1)
    obtain ⟨pre, off, len, ret, data, h2, h3⟩ := h1 _ rfl
    rcases split_cons h2 with ⟨_, h4, _⟩ | ⟨pre', rfl, h4⟩
    · cases h4
    · have := (hdel _ _ _ _ _ _ h4).1
      omega
  obtain ⟨er, f1, f2, f3, _, _, f7, f6⟩ := returned_fed hp e hl hne
  rw [answer_of hp hreq hflag] at f1
  rw [hrt] at f1 f2 f6
  have hfv := feed_view http_machine_ok (answerTo head) (calls (.time t0 :: evs))
  rw [show feedAll http.toParser = feedAll httpParser from rfl, f1, f2] at hfv
  have hrun : ∀ p, absRun http (answerTo head) 0 (View.empty, .live http.init none) p = run (answerTo head) 0 (View.empty, .live .start none) p :=
    fun _ => rfl
  rw [hrun] at hfv
  by_cases hall : received evs = r.bytes
  · left
    obtain ⟨_, _, _, _, _, _, _, _, q1⟩ := response_run ok
    rw [hall, q1] at hfv
    rcases hfv with ⟨v, a, o, g1, _, _, g2, g3⟩ | ⟨v, er', g1, _⟩
    · obtain ⟨rfl, g1⟩ := Prod.mk.inj g1
      have her : er = .ok := congrArg Prod.snd g3
      subst her
      have hms : msgState (.time t0 :: evs) = .complete := by unfold msgState; rw [g2]; rfl
      have hst : st = .success := by
        rw [f6, if_neg (by decide), if_pos (.inl rfl), hms]; rfl
      have hg := got_of_final hp ok hflag e hl hne g2 (show r.bytes <+: received (.time t0 :: evs) by rw [hrt, hall]; exact List.prefix_refl _)
      exact ⟨hst, hall, { hg with reported := hg.reported }⟩
    · cases g1
  · right
    obtain ⟨v, a, o, q1, q2⟩ := prefix_run ok hpre hall
    rw [q1] at hfv
    have hlt : (received evs).length < r.bytes.length := by
      rcases Nat.lt_or_ge (received evs).length r.bytes.length with h | h
      · exact h
      · exact absurd (hpre.eq_of_length_le h) hall
    rcases hfv with ⟨v', a', o', g1, _, _, g2, g3⟩ | ⟨v', er', g1, _⟩
    · obtain ⟨rfl, _⟩ := Prod.mk.inj g1
      have her : er = .ok := congrArg Prod.snd g3
      subst her
      have hms : msgState (.time t0 :: evs) ≠ .complete := by unfold msgState; rw [g2]; exact q2
      have hfl0 : decide (resp.respOptionFlags &&& DO_NOT_PARSE_BODY_FLAG ≠ 0) = false :=
        decide_eq_false fun h => hflag ((headersOnly_iff _).mp h)
      have hst : st = .partialResponse ∨ st = .noResponse := by
        rw [f6, if_neg (by decide), if_pos (.inl rfl), hfl0, decide_eq_false (by omega)]
        cases hm : msgState (.time t0 :: evs) with
        | none => right; rfl
        | incomplete => left; rfl
        | complete => exact absurd hm hms
      exact ⟨hst, hall, h59 st resp' rfl (hst.imp id fun h => ⟨h, by omega⟩)⟩
    · cases g1

/-- Adding the Content-Length line does not change the beginning of the request. -/
theorem wireHeaders_take {block : Bytes} (h : 16 ≤ block.length) (n fl : Nat) : (wireHeaders block n fl).take 5 = block.take 5 := by
  unfold wireHeaders stripBlankLine
  split
  · split
    · rw [List.append_assoc, List.take_append_of_le_length (by rw [List.length_take]; omega), List.take_take, Nat.min_eq_left (by omega)]
    · rw [List.append_assoc, List.take_append_of_le_length (by omega)]
  · rfl

theorem prefix_of_take {a block block' : Bytes} (ha : a.length ≤ 5) (h : block'.take 5 = block.take 5) : a <+: block ↔ a <+: block' := by
  have : ∀ x : Bytes, a <+: x ↔ a <+: x.take 5 := by
    intro x
    constructor
    · intro h; exact List.prefix_take_iff.mpr ⟨h, ha⟩
    · intro h; exact h.trans (List.take_prefix _ _)
  rw [this block, this block', h]

theorem reqIs_wire {head : Bool} {block : Bytes} (h : 16 ≤ block.length) (n fl : Nat) (hr : ReqIs head block) :
    ReqIs head (wireHeaders block n fl) := by
  have ht := wireHeaders_take h n fl
  cases head with
  | true => exact (prefix_of_take (a := ascii "HEAD ") (by decide) ht).mp hr
  | false => exact fun h => hr ((prefix_of_take (a := ascii "HEAD") (by decide) ht).mpr h)

theorem delivers_suffix {wire : Bytes} {evs evs' : List (Ev PLog)} (h0 : received evs = []) (h : Delivers wire (evs ++ evs')) : Delivers wire evs' := by
  intro pre off len ret data post he
  have := h (evs ++ pre) off len ret data post (by rw [he]; simp)
  rw [received_append, h0] at this
  simpa using this

/-- **C58.** A whole exchange. For every request and every well-formed response to it that fits in the response buffer, and every history in which
the network delivers that response (in pieces of any size, with any delays, by any transport and clock): a call of HTTPClient_Send that returns
* failed before anything was received: HTTPInsufficientMemory (the Content-Length line does not fit; nothing sent) or HTTPNetworkError (sending failed);
* or returns HTTPSuccess, and everything is reported as sent;
* or the receive retry timeout expired before all of the response had arrived. -/
theorem C58_round_trip {w : World PLog σ} {head : Bool} {r : Response}
    (hp : CallPre true httpParser cfg T send recv rh rb body n resp b w.mem)
    (ok : r.Ok head) (hreq : ReqIs head (headerBlock w.mem rh)) (hflag : ¬ headersOnly resp.respOptionFlags)
    (hfit : r.bytes.length ≤ resp.bufferLen) (fuel : Nat) :
    ∃ res w' evs, HTTPClient_Send httpParser cfg fuel (some T) (some rh) body n (some resp) flags w = (res, w') ∧ w'.log = w.log ++ evs ∧
      (Delivers r.bytes evs → ∀ st rh' resp', res = .ok (st, rh', some resp') →
        ((st = .networkError ∨ st = .insufficientMemory) ∧ recvs evs = []) ∨
        (accepted evs = wireRequest w.mem rh body n flags ∧ st = .success ∧ received evs = r.bytes ∧
          Got cfg r resp.pHeaderParsingCallback.isSome evs w'.mem resp') ∨
        (accepted evs = wireRequest w.mem rh body n flags ∧ (st = .partialResponse ∨ st = .noResponse) ∧ received evs ≠ r.bytes ∧
          ∃ pre off len t post t0 mid, evs = mid ++ .time t0 :: (pre ++ .recv off len 0 [] :: .time t :: post) ∧ recvs mid = [] ∧ recvs post = [] ∧
            ((withClock resp).getTime.isZero = true ∨ cfg.recvTimeoutMs ≤ t - lastRecv t0 pre))) := by
  have hblk : 16 ≤ (headerBlock w.mem rh).length := by
    have h1 := hp.reqLen; have h2 := hp.reqRoom; have h3 := hp.reqLe
    unfold headerBlock; rw [hp.reqBuf]; simp only [List.length_take]; omega
  rcases send_spec (flags := flags) hp fuel with ⟨h0, h1⟩ | ⟨_, s1, m1, rh', evs1, hfr, hb, hbl, hB, hr, ⟨q, h2, h1, hph⟩ | ⟨h1, hph⟩⟩
  · refine ⟨_, _, [], h1, by simp, ?_⟩
    rintro _ st rh' resp' h
    cases h
    exact .inl ⟨.inr rfl, rfl⟩
  · refine ⟨_, _, evs1, h1, rfl, ?_⟩
    rintro _ st rh' resp' rfl
    rcases h2 with h2 | h2
    · cases h2; exact .inl ⟨.inl rfl, (sending_kinds hph.kinds).1⟩
    · cases h2
  · obtain ⟨k1, k2, _, k4⟩ := sending_kinds hph.kinds
    obtain ⟨res, w', t0, evs, e, hl, hmain⟩ := C58_round_trip_receive (w := ⟨s1, m1, w.log ++ evs1⟩) (r := r) (head := head) hr ok
      (by dsimp only; rw [hB]; exact reqIs_wire hblk _ _ hreq) hflag hfit fuel
    obtain ⟨_, _, evs', e', hl', hns, _, _⟩ := receive_no_send (w := ⟨s1, m1, w.log ++ evs1⟩) hr fuel
    rw [e] at e'; cases e'
    obtain rfl : Ev.time t0 :: evs = evs' := List.append_cancel_left (hl.symm.trans hl')
    rw [h1]
    simp only [M.bind_apply, e]
    refine ⟨(match res with | .ok a => .ok (a.1, some rh', some a.2) | .fault f => .fault f | .more => .more), w', evs1 ++ .time t0 :: evs, ?_, ?_, ?_⟩
    · cases res <;> rfl
    · rw [hl]; simp
    · rintro hdel st rh'' resp' hres
      have hd : Delivers r.bytes evs := by
        have := delivers_suffix (evs := evs1 ++ [.time t0]) (evs' := evs) (by rw [received_append, k4]; rfl) (by simpa using hdel)
        exact this
      have hacc : accepted (evs1 ++ .time t0 :: evs) = wireRequest w.mem rh body n flags := by
        rw [accepted_append', (sends_nil hns).2, List.append_nil]; exact hph.all_ rfl
      have hrec : received (evs1 ++ .time t0 :: evs) = received evs := by rw [received_append, k4]; rfl
      have hrep : reported (evs1 ++ .time t0 :: evs) = reported evs := by rw [reported_append, k2]; rfl
      cases res with
      | fault f => cases hres
      | more => cases hres
      | ok a =>
        obtain ⟨st0, q0⟩ := a
        cases hres
        rcases hmain hd _ _ rfl with ⟨g1, g2, g3⟩ | ⟨g1, g2, pre, off, len, t, post, g3, g4, g5⟩
        · refine .inr (.inl ⟨hacc, g1, by rw [hrec]; exact g2, ?_⟩)
          exact { g3 with reported := by rw [hrep]; exact g3.reported }
        · refine .inr (.inr ⟨hacc, g1, by rw [hrec]; exact g2, pre, off, len, t, post, t0, evs1, by rw [g3], k1, g4, g5⟩)

end CoreHttp.Props

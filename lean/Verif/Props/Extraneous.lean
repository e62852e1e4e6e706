import Verif.Props.Exchange

/-!
# Property C67: extraneous data after a response

The network delivers a well-formed response and then further bytes, which may arrive together with the end of the response. `Response`, `Delivers`:
Verif/Spec/Wire.lean. The parser is the reference parser.
-/

namespace CoreHttp.Ref
open CoreHttp Spec Machine

/-- Between messages, line ends are skipped. -/
theorem complete_newlines {hr : CbRet} {cl : Bool} (cs : Bytes) (h : ∀ c ∈ cs, c = 13 ∨ c = 10) : ∀ (n : Nat) (v : View),
    run hr n (v, .live (.complete cl) none) cs = (v, .live (.complete cl) none) := by
  induction cs with
  | nil => intro n v; rfl
  | cons c cs ih =>
    intro n v
    have h0 : step (.complete cl) c = .done (.complete cl) := by simp only [step]; rw [if_pos (h c (List.mem_cons_self ..))]
    rw [run_cons, h0]
    exact ih (fun d hd => h d (List.mem_cons_of_mem _ hd)) _ _

/-- The first other byte is an error, unless another message may follow and begins. -/
theorem complete_extra {hr : CbRet} {cl : Bool} (nl : Bytes) (h : ∀ c ∈ nl, c = 13 ∨ c = 10) (d : UInt8) (y : Bytes) (hd : ¬ (d = 13 ∨ d = 10))
    (hx : cl = true ∨ d ≠ 72) (n : Nat) (v : View) :
    run hr n (v, .live (.complete cl) none) (nl ++ d :: y) = (v, .dead (if cl then .closedConnection else .invalidConstant)) := by
  refine run_then (complete_newlines nl h n v) ?_
  have h0 : step (.complete cl) d = .fail (if cl then .closedConnection else .invalidConstant) := by
    simp only [step]
    rw [if_neg hd]
    cases cl with
    | true => simp
    | false =>
      rcases hx with hx | hx
      · cases hx
      · simp [hx]
  rw [run_cons, h0]
  exact run_dead _ _ _ _

end CoreHttp.Ref

namespace CoreHttp.Props
open CoreHttp Spec Ref Machine
variable {σ : Type} {cfg : Cfg} {T : Transport σ} {send : σ → Bytes → Int × σ} {recv : σ → Nat → Int × Bytes × σ}
  {resp : Resp σ} {rh : ReqHeaders} {b rb : Nat} {body : Option Nat} {n : Nat} {flags : UInt32} {request : Bytes} {got rest : σ → Bytes}

/-- CR or LF -/
abbrev IsNewline (c : UInt8) : Prop := c = 13 ∨ c = 10

/-- **C67, receiving.** For every well-formed response `r` that fits in the buffer, all further bytes `extra`, and every history in which the network
delivers `r` followed by `extra` (in pieces of any size, with any delays, by any transport and clock), a call that returns has
* received `r` and of `extra` only line ends (possibly none): HTTPSuccess, and everything is as sent; or
* received more, together with the end of `r`: if `r` announces that the connection closes, HTTPSecurityAlertExtraneousResponseData; if not, and what
  follows does not begin like a response, HTTPSecurityAlertInvalidCharacter; or
* not received all of `r`, because the retry timeout expired. -/
theorem C67_extraneous_receive {w : World PLog σ} {head : Bool} {r : Response} {extra : Bytes}
    (hp : RecvPre true httpParser cfg T recv resp rh b rb w.mem)
    (ok : r.Ok head) (hreq : ReqIs head (headerBlock w.mem rh)) (hflag : ¬ headersOnly resp.respOptionFlags)
    (hfit : r.bytes.length ≤ resp.bufferLen) (fuel : Nat) :
    ∃ res w' t0 evs, HTTPClient_ReceiveAndParseHttpResponse httpParser cfg fuel (some T) (some resp) (some rh) w = (res, w') ∧
      w'.log = w.log ++ .time t0 :: evs ∧
      (Delivers (r.bytes ++ extra) evs → ∀ st resp', res = .ok (st, resp') →
        (∃ x, received evs = r.bytes ++ x ∧ x <+: extra ∧
          ((∀ c ∈ x, IsNewline c) → st = .success ∧ Got cfg r resp.pHeaderParsingCallback.isSome evs w'.mem resp') ∧
          (∀ nl d y, x = nl ++ d :: y → (∀ c ∈ nl, IsNewline c) → ¬ IsNewline d →
            (r.closes → st = .extraneousResponseData) ∧
            (¬ r.closes → d ≠ 72 → st = .invalidCharacter))) ∨
        ((st = .partialResponse ∨ st = .noResponse) ∧ ¬ r.bytes <+: received evs ∧
          ∃ pre off len t post, evs = pre ++ .recv off len 0 [] :: .time t :: post ∧ recvs post = [] ∧
            (resp.getTime.isZero = true ∨ cfg.recvTimeoutMs ≤ t - lastRecv t0 pre))) := by
  obtain ⟨res, w', t0, evs, e, hl, h59⟩ := C59_no_early_stop hp fuel
  refine ⟨res, w', t0, evs, e, hl, ?_⟩
  rintro hdel st resp' rfl
  have hrt : received (.time t0 :: evs) = received evs := rfl
  have hrp : reported (.time t0 :: evs) = reported evs := rfl
  have hpre := delivers_prefix evs hdel
  have hne : st ≠ .networkError := by
    rintro rfl
    obtain ⟨_, _, evs1, e1, l1, _, h1⟩ := C31_receive_error hp fuel
    rw [e] at e1; cases e1
    obtain rfl : Ev.time t0 :: evs = evs1 := List.append_cancel_left (hl.symm.trans l1)
    obtain ⟨pre, off, len, ret, data, h2, h3⟩ := h1 _ rfl
    rcases split_cons h2 with ⟨_, h4, _⟩ | ⟨pre', rfl, h4⟩
    · cases h4
    · have := (hdel _ _ _ _ _ _ h4).1
      omega
  obtain ⟨er, f1, f2, f3, _, _, f7, f6⟩ := returned_fed hp e hl hne
  rw [answer_of hp hreq hflag] at f1
  rw [hrt] at f1 f2 f6
  have hfv := feed_view http_machine_ok (answerTo head) (calls (.time t0 :: evs))
  rw [show feedAll http.toParser = feedAll httpParser from rfl, f1, f2] at hfv
  have hrun : ∀ p, absRun http (answerTo head) 0 (View.empty, .live http.init none) p = run (answerTo head) 0 (View.empty, .live .start none) p :=
    fun _ => rfl
  rw [hrun] at hfv
  by_cases hall : r.bytes <+: received evs
  · left
    obtain ⟨x, hx⟩ := id hall
    obtain ⟨_, _, _, _, _, _, _, _, q1⟩ := response_run ok
    refine ⟨x, hx.symm, ?_, ?_, ?_⟩
    · rw [← hx] at hpre
      exact (List.prefix_append_right_inj _).mp hpre
    · intro hnl
      rw [← hx, run_then q1 (complete_newlines x hnl _ _)] at hfv
      rcases hfv with ⟨v, a, o, g1, _, _, g2, g3⟩ | ⟨v, er', g1, _⟩
      · obtain ⟨rfl, g1⟩ := Prod.mk.inj g1
        have her : er = .ok := congrArg Prod.snd g3
        subst her
        have hms : msgState (.time t0 :: evs) = .complete := by unfold msgState; rw [g2]; rfl
        have hst : st = .success := by
          rw [f6, if_neg (by decide), if_pos (.inl rfl), hms]; rfl
        have hg := got_of_final hp ok hflag e hl hne g2 hall
        exact ⟨hst, { hg with reported := hg.reported }⟩
      · cases g1
    · rintro nl d y rfl hnl hd
      have key : ∀ er', (run (answerTo head) 0 (View.empty, .live .start none) (received evs)).2 = .dead er' →
          er' ≠ .paused → er' ≠ .ok → er' ≠ .pausedUpgrade → st = processLlhttpError er' := by
        intro er' h1 h2 h3 h4
        rcases hfv with ⟨v, a, o, g1, _⟩ | ⟨v, er'', g1, _, _, g3⟩
        · rw [g1] at h1; cases h1
        · rw [g1] at h1; cases h1
          have her : er = er' := congrArg Prod.snd g3
          subst her
          rw [f6, if_neg h2, if_neg (fun h => h.elim h3 h4)]
      refine ⟨fun hc => ?_, fun hc hd2 => ?_⟩
      · have hc' := (closesB_iff r).mpr hc
        exact key .closedConnection (by rw [← hx, run_then q1 (complete_extra nl hnl d y hd (.inl hc') _ _), hc']; rfl)
          (by decide) (by decide) (by decide)
      · have hc' : closesB r = false := by
          rw [← Bool.not_eq_true]; exact fun h => hc ((closesB_iff r).mp h)
        have := key .invalidConstant (by rw [← hx, run_then q1 (complete_extra nl hnl d y hd (.inr hd2) _ _), hc']; rfl)
          (by decide) (by decide) (by decide)
        rw [this]; rfl
  · right
    have hpr : received evs <+: r.bytes := by
      rcases List.prefix_or_prefix_of_prefix hpre (List.prefix_append r.bytes extra) with h | h
      · exact h
      · exact absurd h hall
    have hner : received evs ≠ r.bytes := fun h => hall (by rw [h]; exact List.prefix_refl _)
    obtain ⟨v, a, o, q1, q2⟩ := prefix_run ok hpr hner
    rw [q1] at hfv
    have hlt : (received evs).length < r.bytes.length := by
      rcases Nat.lt_or_ge (received evs).length r.bytes.length with h | h
      · exact h
      · exact absurd (hpr.eq_of_length_le h) hner
    rcases hfv with ⟨v', a', o', g1, _, _, g2, g3⟩ | ⟨v', er', g1, _⟩
    · obtain ⟨rfl, _⟩ := Prod.mk.inj g1
      have her : er = .ok := congrArg Prod.snd g3
      subst her
      have hms : msgState (.time t0 :: evs) ≠ .complete := by unfold msgState; rw [g2]; exact q2
      have hfl0 : decide (resp.respOptionFlags &&& DO_NOT_PARSE_BODY_FLAG ≠ 0) = false :=
        decide_eq_false fun h => hflag ((headersOnly_iff _).mp h)
      have hst : st = .partialResponse ∨ st = .noResponse := by
        rw [f6, if_neg (by decide), if_pos (.inl rfl), hfl0, decide_eq_false (by omega)]
        cases hm : msgState (.time t0 :: evs) with
        | none => right; rfl
        | incomplete => left; rfl
        | complete => exact absurd hm hms
      exact ⟨hst, hall, h59 st resp' rfl (hst.imp id fun h => ⟨h, by omega⟩)⟩
    · cases g1

/-- Where `extra` is not taken for the beginning of another response: the connection closes, or the first byte of `extra` that is not a line end is
not an "H". -/
def NoSecond (r : Response) (extra : Bytes) : Prop :=
  r.closes ∨ ∀ nl d y, extra = nl ++ d :: y → (∀ c ∈ nl, IsNewline c) → ¬ IsNewline d → d ≠ 72

theorem newlines_or (x : Bytes) : (∀ c ∈ x, IsNewline c) ∨ ∃ nl d y, x = nl ++ d :: y ∧ (∀ c ∈ nl, IsNewline c) ∧ ¬ IsNewline d := by
  induction x with
  | nil => exact .inl (fun _ h => absurd h List.not_mem_nil)
  | cons c x ih =>
    by_cases hc : IsNewline c
    · rcases ih with h | ⟨nl, d, y, rfl, h1, h2⟩
      · left; intro d hd
        rcases List.mem_cons.mp hd with rfl | hd
        · exact hc
        · exact h d hd
      · refine .inr ⟨c :: nl, d, y, rfl, ?_, h2⟩
        intro d hd
        rcases List.mem_cons.mp hd with rfl | hd
        · exact hc
        · exact h1 d hd
    · exact .inr ⟨[], c, x, rfl, fun _ h => absurd h List.not_mem_nil, hc⟩

/-- When all of the response and the extraneous data has been received, nothing more is. -/
theorem fed_extra {w : World PLog σ} {head : Bool} {r : Response} {extra : Bytes} (hp : RecvPre true httpParser cfg T recv resp rh b rb w.mem)
    (ok : r.Ok head) (hreq : ReqIs head (headerBlock w.mem rh)) (hflag : ¬ headersOnly resp.respOptionFlags) (hx : NoSecond r extra)
    {evs : List (Ev PLog)} (hf : FedOk httpParser (policy resp.respOptionFlags (startsHead w.mem rb)) evs) (hall : received evs = r.bytes ++ extra) :
    msgState evs = .complete := by
  obtain ⟨f1, f2, f3⟩ := hf
  rw [policy_eq, answer_of hp hreq hflag] at f2 f3
  have hfl : (calls evs).flatten = r.bytes ++ extra := by rw [calls_flatten, f1, hall]
  have hfv := feed_view http_machine_ok (answerTo head) (calls evs)
  have hrun : ∀ p, absRun http (answerTo head) 0 (View.empty, .live http.init none) p = run (answerTo head) 0 (View.empty, .live .start none) p :=
    fun _ => rfl
  obtain ⟨_, _, _, _, _, _, _, _, q1⟩ := response_run ok
  rw [show feedAll http.toParser = feedAll httpParser from rfl, hrun, hfl] at hfv
  rcases newlines_or extra with hnl | ⟨nl, d, y, rfl, h1, h2⟩
  · rw [run_then q1 (complete_newlines extra hnl _ _)] at hfv
    rcases hfv with ⟨v, a, o, g1, _, _, g2, g3⟩ | ⟨v, er', g1, _⟩
    · obtain ⟨rfl, g1⟩ := Prod.mk.inj g1
      unfold msgState
      rw [f2, g2]; rfl
    · cases g1
  · have hcl : closesB r = true ∨ d ≠ 72 := hx.imp (closesB_iff r).mpr fun h => h _ _ _ rfl h1 h2
    rw [run_then q1 (complete_extra nl h1 d y h2 hcl _ _)] at hfv
    rcases hfv with ⟨v, a, o, g1, _⟩ | ⟨v, er', _, g1, _, g2⟩
    · cases g1
    · rw [g2] at f3
      exact absurd f3 g1

/-- **C67, with a cooperative peer, receiving.** For every well-formed response that fits in the buffer, all further bytes that do not look like
another response on a connection that stays open, and every peer that delivers both, in pieces of any size and at any speed: the call returns; either
HTTPSuccess with everything reported as sent, having read at most line ends after the response; or a security alert, having read something else. Nothing
is lost: what has not been read the transport still has to deliver. -/
theorem C67_peer_receive {w : World PLog σ} {head : Bool} {r : Response} {extra : Bytes} (hp : RecvPre true httpParser cfg T recv resp rh b rb w.mem)
    (ok : r.Ok head) (hreq : ReqIs head (headerBlock w.mem rh)) (hflag : ¬ headersOnly resp.respOptionFlags)
    (hfit : r.bytes.length ≤ resp.bufferLen) (hx : NoSecond r extra) (hP : Peer request (r.bytes ++ extra) got rest send recv resp)
    (hgot : got w.env = request) (hrest : rest w.env = r.bytes ++ extra) {fuel : Nat} (hfuel : resp.bufferLen < fuel) :
    ∃ st resp' w' evs x, HTTPClient_ReceiveAndParseHttpResponse httpParser cfg fuel (some T) (some resp) (some rh) w = (.ok (st, resp'), w') ∧
      w'.log = w.log ++ evs ∧ received evs = r.bytes ++ x ∧ x ++ rest w'.env = extra ∧ got w'.env = request ∧
      ((∀ c ∈ x, IsNewline c) → st = .success ∧ Got cfg r resp.pHeaderParsingCallback.isSome evs w'.mem resp') ∧
      (¬ (∀ c ∈ x, IsNewline c) → r.closes → st = .extraneousResponseData) ∧
      (¬ (∀ c ∈ x, IsNewline c) → ¬ r.closes → st = .invalidCharacter) := by
  have hx' : ∀ s len, (recv s len).1 = ((recv s len).2.1.length : Int) := fun s len => (hP.delivers s len).1
  obtain ⟨res, w', t0, evs, e, hl, h67⟩ := C67_extraneous_receive (extra := extra) hp ok hreq hflag hfit fuel
  -- the relation of environment and trace
  have hk := (receive_keeps httpParser cfg hp.hasRecv (receiving_inv hP w.log) rh fuel w
    ⟨[], by simp, hgot, by simpa [received] using hrest, by intro pre off len ret data post h; cases pre <;> cases h⟩).1
  rw [e] at hk
  obtain ⟨evs', hl', g1, g2, g3⟩ := hk
  obtain rfl : Ev.time t0 :: evs = evs' := List.append_cancel_left (hl.symm.trans hl')
  -- every receive call delivers something
  have hne : ∀ pre off len ret data post, Ev.time t0 :: evs = pre ++ .recv off len ret data :: post → data ≠ [] := by
    intro pre off len ret data post he h0
    obtain ⟨_, _, evs1, e1, l1, h29, _⟩ := C29_receive_contiguous hp fuel
    rw [e] at e1; cases e1
    obtain rfl : Ev.time t0 :: evs = evs1 := List.append_cancel_left (hl.symm.trans l1)
    obtain ⟨_, _, evs1, e1, l1, h51⟩ := C51_one_response_partial hp fuel
    rw [e] at e1; cases e1
    obtain rfl : Ev.time t0 :: evs = evs1 := List.append_cancel_left (hl.symm.trans l1)
    obtain ⟨_, _, t1, evs1, e1, l1, hfa⟩ := receive_fedAt hp fuel
    rw [e] at e1; cases e1
    obtain ⟨ht, hev⟩ := List.cons.inj (List.append_cancel_left (hl.symm.trans l1))
    cases ht; cases hev
    rcases (g3 _ _ _ _ _ _ he).2.2 h0 with h1 | h1
    · have := (h29 _ _ _ _ _ _ he).2.2.1; omega
    · refine h51 _ _ _ _ _ _ he (fed_extra hp ok hreq hflag hx ?_ h1)
      rcases split_cons he with ⟨_, h2, _⟩ | ⟨pre', rfl, h2⟩
      · cases h2
      · exact hfa _ _ _ _ _ _ h2
  have hcount := recvs_le_received hne
  have hlen : (received (Ev.time t0 :: evs)).length ≤ resp.bufferLen := by
    obtain ⟨r1, w1, t1, tr1, e1, l1, hev, _⟩ := receive_spec hp fuel
    rw [e] at e1; cases e1
    have h1 : Ev.time t0 :: evs = Ev.time t1 :: tr1 := List.append_cancel_left (hl.symm.trans l1)
    rw [h1]
    exact received_le hev
  -- the call returns
  have hm : res ≠ .more := by
    rintro rfl
    have h1 := receive_more hp hx' (fuel := fuel) (by rw [e])
    rw [e] at h1
    dsimp only at h1
    rw [hl, recvs_append, List.length_append] at h1
    omega
  have hnf : ∀ f, res ≠ .fault f := by
    obtain ⟨_, _, _, e1, _, _, h1, _⟩ := receive_no_send hp fuel
    rw [e] at e1; cases e1
    exact h1
  rcases res with ⟨st, resp'⟩ | f | _
  · have hdel : Delivers (r.bytes ++ extra) evs := by
      intro pre off len ret data post he
      have := g3 (.time t0 :: pre) off len ret data post (by rw [he]; rfl)
      exact ⟨this.1, this.2.1⟩
    rcases h67 hdel _ _ rfl with ⟨x, h1, h2, h3, h4⟩ | ⟨_, _, pre, off, len, t, post, h1, _⟩
    · have hr : received (Ev.time t0 :: evs) = r.bytes ++ x := h1
      rw [hr, List.append_assoc] at g2
      have g2 := List.append_cancel_left g2
      refine ⟨st, resp', w', _, x, e, hl, hr, g2, g1, ?_, ?_, ?_⟩
      · intro h; obtain ⟨k1, k2⟩ := h3 h; exact ⟨k1, { k2 with reported := k2.reported }⟩
      · intro h hc
        rcases newlines_or x with h' | ⟨nl, d, y, k1, k2, k3⟩
        · exact absurd h' h
        · exact (h4 nl d y k1 k2 k3).1 hc
      · intro h hc
        rcases newlines_or x with h' | ⟨nl, d, y, k1, k2, k3⟩
        · exact absurd h' h
        · refine (h4 nl d y k1 k2 k3).2 hc ?_
          rcases hx with hx | hx
          · exact absurd hx hc
          · exact hx nl d (y ++ rest w'.env) (by rw [← g2, k1]; simp) k2 k3
    · exact absurd rfl (hne (.time t0 :: pre) off len 0 [] _ (by rw [h1]; rfl))
  · exact absurd rfl (hnf f)
  · exact absurd rfl hm

/-- **C67, with a cooperative peer.** For every request that fits in its buffer, every well-formed response to it that fits in the response buffer, all
further bytes that do not look like another response on a connection that stays open, and every peer that accepts the request and delivers the response
and the further bytes, in pieces of any size and at any speed: HTTPClient_Send returns HTTPSuccess, with everything reported as the peer sent it, if it
has read at most line ends after the response, and a security alert if it has read something else. Nothing is lost: what it has not read the transport
has still to deliver. -/
theorem C67_exchange {w : World PLog σ} {head : Bool} {r : Response} {extra : Bytes}
    (hp : CallPre true httpParser cfg T send recv rh rb body n resp b w.mem)
    (ok : r.Ok head) (hreq : ReqIs head (headerBlock w.mem rh)) (hflag : ¬ headersOnly resp.respOptionFlags)
    (hfit : r.bytes.length ≤ resp.bufferLen) (hfit' : (wireHeaders (headerBlock w.mem rh) n flags.toNat).length ≤ rh.bufferLen)
    (hx : NoSecond r extra)
    (hP : Peer (wireRequest w.mem rh body n flags) (r.bytes ++ extra) got rest send recv resp) (hgot : got w.env = [])
    {fuel : Nat} (hf1 : rh.bufferLen ≤ fuel) (hf2 : n ≤ fuel) (hf3 : resp.bufferLen < fuel) :
    ∃ st rh' resp' w' evs x,
      HTTPClient_Send httpParser cfg fuel (some T) (some rh) body n (some resp) flags w = (.ok (st, some rh', some resp'), w') ∧
      w'.log = w.log ++ evs ∧ got w'.env = wireRequest w.mem rh body n flags ∧ x ++ rest w'.env = extra ∧
      accepted evs = wireRequest w.mem rh body n flags ∧ received evs = r.bytes ++ x ∧
      ((∀ c ∈ x, IsNewline c) → st = .success ∧ Got cfg r resp.pHeaderParsingCallback.isSome evs w'.mem resp') ∧
      (¬ (∀ c ∈ x, IsNewline c) → r.closes → st = .extraneousResponseData) ∧
      (¬ (∀ c ∈ x, IsNewline c) → ¬ r.closes → st = .invalidCharacter) := by
  have hblk : 16 ≤ (headerBlock w.mem rh).length := by
    have h1 := hp.reqLen; have h2 := hp.reqRoom; have h3 := hp.reqLe
    unfold headerBlock; rw [hp.reqBuf]; simp only [List.length_take]; omega
  have hP' : Peer (wireRequest w.mem rh body n flags) (r.bytes ++ extra) got rest send recv (withClock resp) :=
    { hP with
      clock := by
        intro f hf
        refine hP.clock f ?_
        unfold withClock at hf
        cases hc : resp.getTime <;> rw [hc] at hf <;> first | exact hf | cases hf
      header := hP.header }
  have hwr : wireRequest w.mem rh body n flags ≠ [] := by
    intro h
    have h1 := congrArg List.length (wireHeaders_take hblk n flags.toNat)
    have h2 : wireHeaders (headerBlock w.mem rh) n flags.toNat = [] := by
      unfold wireRequest at h; exact (List.append_eq_nil_iff.mp h).1
    rw [h2] at h1
    simp at h1
    omega
  obtain ⟨h', hall⟩ := sendRequest_all (flags := flags) (withClock_ne resp) hp hfit' hP.accepts hf1 hf2
  have hk := (sendRequest_keeps (sending_inv hP' w.log) cfg hp.hasSend rh body n flags fuel w
    ⟨[], by simp, by simpa [accepted] using hgot, fun h => absurd h.symm hwr⟩).1
  rw [send_eq hp fuel]
  simp only [M.bind_apply]
  rcases sendRequest_spec (flags := flags) (withClock_ne resp) hp fuel with ⟨h1, h2⟩ | ⟨h1, q, s', m', rh', evs1, e, hfr, hb, hbl, hle, hB, hlen, h2⟩
  · omega
  rw [e] at hall hk
  dsimp only at hall
  rcases h2 with ⟨rfl, hph⟩ | ⟨rfl | rfl, _⟩
  · rw [e]
    simp only [if_true, M.bind_apply]
    obtain ⟨evs1', hl1, k1, k2⟩ := hk
    obtain rfl : evs1 = evs1' := List.append_cancel_left hl1
    obtain ⟨s1, s2, _, s4⟩ := sending_kinds hph.kinds
    have hacc := hph.all_ rfl
    have hr := recvPre_of hp hfr hb hbl hle hB hlen
    obtain ⟨st, resp', w', evs, x, e2, hl2, a1, a2, a3, a4, a5, a6⟩ := C67_peer_receive (w := ⟨s', m', w.log ++ evs1⟩) (r := r) (head := head)
      (extra := extra) hr ok (by dsimp only; rw [hB]; exact reqIs_wire hblk _ _ hreq) hflag hfit hx hP' (k1.trans hacc) (k2 hacc) hf3
    obtain ⟨_, _, evs', e', hl', hns, _, _⟩ := receive_no_send (w := ⟨s', m', w.log ++ evs1⟩) hr fuel
    rw [e2] at e'; cases e'
    obtain rfl : evs = evs' := List.append_cancel_left (hl2.symm.trans hl')
    rw [e2]
    refine ⟨st, rh', resp', w', evs1 ++ evs, x, rfl, by rw [hl2]; simp, a3, a2, ?_, ?_, ?_, a5, a6⟩
    · rw [accepted_append', (sends_nil hns).2, List.append_nil]; exact hacc
    · rw [received_append, s4]; exact a1
    · intro h
      obtain ⟨b1, b2⟩ := a4 h
      exact ⟨b1, { b2 with reported := by rw [reported_append, s2]; exact b2.reported }⟩
  · cases hall
  · cases hall

/-! ### Non-vacuity -/

/-- All hypotheses of C67 hold for a PUT request and a chunked response that announces that the connection closes, with anything after it. -/
example (extra : Bytes) (q : Nat) (hq : q = 0 ∨ q = 1) (t : Nat) : ∃ st rh' resp' w' evs x,
    HTTPClient_Send httpParser exCfg 300 (some (peerT (wireRequest xMem xReq (some 2) 5 0) (exResponse.bytes ++ extra)))
      (some xReq) (some 2) 5 (some (peerResp q)) 0 ⟨(t, [], []), xMem, []⟩ = (.ok (st, some rh', some resp'), w') ∧ w'.log = evs ∧
    received evs = exResponse.bytes ++ x ∧ x ++ w'.env.2.2 = extra ∧
    ((∀ c ∈ x, IsNewline c) → st = .success ∧ resp'.statusCode = 206 ∧ bodyBytes w'.mem resp' = ascii "abcdefghijklmn" ++ [0]) ∧
    (¬ (∀ c ∈ x, IsNewline c) → st = .extraneousResponseData) := by
  have hc : exResponse.closes :=
    .inl ⟨⟨ascii "Connection", [], ascii "close"⟩, by decide +kernel, by decide +kernel, by decide +kernel⟩
  obtain ⟨st, rh', resp', w', evs, x, e, hl, _, h2, _, h4, h5, h6, _⟩ := C67_exchange (w := (⟨(t, [], []), xMem, []⟩ : World PLog PeerEnv))
    (flags := 0) (fuel := 300) (peerCallPre _ _ q hq) exResponse_ok (show ¬ ascii "HEAD" <+: headerBlock xMem xReq by decide +kernel)
    (show ¬ ((0 : UInt32).toNat % 2 = 1) by decide) (show exResponse.bytes.length ≤ 200 by decide +kernel)
    (show (wireHeaders (headerBlock xMem xReq) 5 (UInt32.toNat 0)).length ≤ 60 by decide +kernel) (.inl hc) (peer_ok _ _ q) rfl
    (by decide) (by decide) (show 200 < 300 by decide)
  refine ⟨st, rh', resp', w', evs, x, e, by simpa using hl, h4, h2, fun h => ?_, fun h => h6 h hc⟩
  obtain ⟨k1, k2⟩ := h5 h
  exact ⟨k1, k2.statusCode, by rw [k2.body]; decide +kernel⟩

/-- What a run returns, and what the peer has still to deliver. -/
def extraRun (extra : Bytes) : Option (Status × Bytes) :=
  match HTTPClient_Send httpParser exCfg 300 (some (peerT (wireRequest xMem xReq (some 2) 5 0) (exResponse.bytes ++ extra)))
    (some xReq) (some 2) 5 (some (peerResp 1)) 0 ⟨(0, [], []), xMem, []⟩ with
  | (.ok (st, _, _), w) => some (st, w.env.2.2)
  | _ => none

/-- All cases occur: this peer delivers five bytes at a time, and with the last bytes of the response the first two bytes after it. -/
example : extraRun [] = some (.success, []) ∧ extraRun (ascii "\r\nGET /") = some (.success, ascii "GET /") ∧
    extraRun (ascii "\rHTTP/1.1 200 OK") = some (.extraneousResponseData, ascii "TTP/1.1 200 OK") := by decide +kernel

end CoreHttp.Props

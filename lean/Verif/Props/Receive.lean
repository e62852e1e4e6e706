import Verif.Lemmas.RecvTerm
import Verif.Lemmas.RecvTrace
import Verif.Lemmas.SendTerm

/-!
# Properties C29–C42: receiving

`HTTPClient_ReceiveAndParseHttpResponse P cfg fuel ...` is the call observed for at most `fuel` transport calls; `.more` means it is still
running. The theorems hold for every fuel, every environment, every transport honouring its contract, and every parser honouring the parser
contract (`RecvPre`). `evs` is what is observed during the call.
-/

namespace CoreHttp.Props
open CoreHttp Spec
variable {σ : Type} {P : Parser} {cfg : Cfg} {strict : Bool} {T : Transport σ} {recv : σ → Nat → Int × Bytes × σ} {resp : Resp σ}
  {rh : ReqHeaders} {b rb : Nat}

/-- **C29.** Every receive call asks for exactly the free remainder of the buffer (never empty), at the end of the data received so far. -/
theorem C29_receive_contiguous {w : World PLog σ} (hp : RecvPre strict P cfg T recv resp rh b rb w.mem) (fuel : Nat) :
    ∃ r w' evs, HTTPClient_ReceiveAndParseHttpResponse P cfg fuel (some T) (some resp) (some rh) w = (r, w') ∧ w'.log = w.log ++ evs ∧
      (∀ pre off len ret data post, evs = pre ++ .recv off len ret data :: post →
        off = (received pre).length ∧ off + len = resp.bufferLen ∧ 0 < len ∧ data.length = ret.toNat) ∧
      (received evs).length ≤ resp.bufferLen := by
  obtain ⟨r, w', t0, tr, e, hl, hev, hfr, _⟩ := receive_spec hp fuel
  refine ⟨r, w', _, e, hl, ?_, received_le hev⟩
  intro pre off len ret data post h
  have := hev _ _ _ h
  simp only [EvGood] at this
  exact ⟨this.1, this.2.1, this.2.2.1, this.2.2.2.1⟩

/-- **C30.** Every call of the parser is given exactly the received bytes it has not seen yet (at their place in the buffer), and when the call
returns everything received has been parsed. -/
theorem C30_parsed_once {w : World PLog σ} (hp : RecvPre strict P cfg T recv resp rh b rb w.mem) (fuel : Nat) :
    ∃ r w' evs, HTTPClient_ReceiveAndParseHttpResponse P cfg fuel (some T) (some resp) (some rh) w = (r, w') ∧ w'.log = w.log ++ evs ∧
      (∀ pre off data post, evs = pre ++ .parserCall off data :: post → off = (parsed pre).length ∧ parsed pre ++ data = received pre) ∧
      (r ≠ .more → parsed evs = received evs) := by
  obtain ⟨r, w', t0, tr, e, hl, hev, hfr, h⟩ := receive_spec hp fuel
  refine ⟨r, w', _, e, hl, ?_, ?_⟩
  · intro pre off data post h
    have := hev _ _ _ h
    simp only [EvGood] at this
    exact ⟨this.1, this.2.symm⟩
  · intro hr
    rcases h with ⟨rfl, _⟩ | ⟨lst, total, h, st, resp', rfl, h1, h2, h3⟩
    · exact absurd rfl hr
    · exact h2.parsedAll

/-- **C31.** A negative result of the receive function is the last thing that happens, and HTTPNetworkError is returned exactly then. -/
theorem C31_receive_error {w : World PLog σ} (hp : RecvPre strict P cfg T recv resp rh b rb w.mem) (fuel : Nat) :
    ∃ r w' evs, HTTPClient_ReceiveAndParseHttpResponse P cfg fuel (some T) (some resp) (some rh) w = (r, w') ∧ w'.log = w.log ++ evs ∧
      (∀ pre off len ret data post, evs = pre ++ .recv off len ret data :: post → ret < 0 →
        post = [] ∧ ∃ resp', r = .ok (.networkError, resp')) ∧
      (∀ resp', r = .ok (.networkError, resp') → ∃ pre off len ret data, evs = pre ++ [.recv off len ret data] ∧ ret < 0) := by
  obtain ⟨r, w', t0, tr, e, hl, hev, hfr, h⟩ := receive_spec hp fuel
  refine ⟨r, w', _, e, hl, ?_, ?_⟩
  · intro pre off len ret data post h0 hneg
    rcases split_cons h0 with ⟨_, h1, _⟩ | ⟨pre', rfl, h0'⟩
    · cases h1
    rcases h with ⟨rfl, h1⟩ | ⟨lst, total, h, st, resp', rfl, h1, h2, h3⟩
    · rcases h1.recv_split _ _ _ _ _ _ h0' with ⟨_, _, h⟩ | ⟨h, _⟩ | ⟨h, _⟩
      · cases h
      · omega
      · omega
    · rcases h1.recv_split _ _ _ _ _ _ h0' with ⟨_, hpost, h⟩ | ⟨h, _⟩ | ⟨h, _⟩
      · cases h
        refine ⟨hpost, resp', ?_⟩
        rcases h3 with ⟨h3, _⟩ | ⟨h3, _⟩ | ⟨_, _, _, h3⟩
        · cases h3
        · cases h3
        · rw [h3]
      · omega
      · omega
  · intro resp1 hr
    rcases h with ⟨rfl, _⟩ | ⟨lst, total, h, st, resp', rfl, h1, h2, h3⟩
    · cases hr
    · simp only [Run.ok.injEq, Prod.mk.injEq] at hr
      obtain ⟨rfl, rfl⟩ := hr
      rcases h1.ends _ rfl with ⟨_, pre, off, len, ret, data, h4, h5⟩ | ⟨pre, er, ep, h4, h5⟩
      · exact ⟨.time t0 :: pre, off, len, ret, data, by rw [h4]; rfl, h5⟩
      · exfalso
        rcases h3 with ⟨_, h3, _⟩ | ⟨_, _, h3⟩ | ⟨_, _, _, h3⟩
        · cases h3
        · rcases finalStatus_cases h.ctx.state (decide (total = h.resp.bufferLen))
            (decide (h.resp.respOptionFlags &&& DO_NOT_PARSE_BODY_FLAG ≠ 0)) with h6 | h6 | h6 | h6 <;> rw [h6] at h3 <;> cases h3
        · exact processLlhttpError_network er (by rw [← h5, ← h3])

/-- **C33.** After a zero result the clock is read (`t`), and receiving ends there (no further receive call, and the call returns) if and only if
the time since the last received data, or since the start, is at least the configured timeout, or there is no user clock. The time
difference is the true one for a 32-bit clock that wraps around, as long as less than 2^32 ms passed. -/
theorem C33_timeout_exact {w : World PLog σ} (hp : RecvPre strict P cfg T recv resp rh b rb w.mem) (fuel : Nat) :
    ∃ r w' t0 evs, HTTPClient_ReceiveAndParseHttpResponse P cfg fuel (some T) (some resp) (some rh) w = (r, w') ∧
      w'.log = w.log ++ .time t0 :: evs ∧
      ∀ pre off len data post, evs = pre ++ .recv off len 0 data :: post →
        ∃ t post', post = .time t :: post' ∧
          ((recvs post' = [] ∧ r ≠ .more) ↔ (resp.getTime.isZero = true ∨ cfg.recvTimeoutMs ≤ t - lastRecv t0 pre)) ∧
          (∀ now0 now1 : Nat, lastRecv t0 pre = UInt32.ofNat now0 → t = UInt32.ofNat now1 → now0 ≤ now1 →
            now1 - now0 < 4294967296 → resp.getTime.isZero = false →
            ((recvs post' = [] ∧ r ≠ .more) ↔ cfg.recvTimeoutMs.toNat ≤ now1 - now0)) := by
  obtain ⟨r, w', t0, tr, e, hl, hev, hfr, h⟩ := receive_spec hp fuel
  refine ⟨r, w', t0, tr, e, hl, ?_⟩
  intro pre off len data post h0
  have hsplit : ∃ o, RecvTrace (retryTimeout resp.getTime cfg.recvTimeoutMs) resp.bufferLen [.time t0] t0 tr o ∧ (o = none ↔ r = .more) := by
    rcases h with ⟨rfl, h1⟩ | ⟨lst, total, h, st, resp', rfl, h1, _⟩
    · exact ⟨none, h1, by simp⟩
    · exact ⟨_, h1, by simp⟩
  obtain ⟨o, htr, ho⟩ := hsplit
  have key : ∃ t post', post = .time t :: post' ∧
      ((recvs post' = [] ∧ r ≠ .more) ↔ (resp.getTime.isZero = true ∨ cfg.recvTimeoutMs ≤ t - lastRecv t0 pre)) := by
    have hT : ∀ t : UInt32, retryTimeout resp.getTime cfg.recvTimeoutMs ≤ t - lastRecv t0 pre ↔
        (resp.getTime.isZero = true ∨ cfg.recvTimeoutMs ≤ t - lastRecv t0 pre) := by
      intro t
      unfold retryTimeout
      by_cases hz : resp.getTime.isZero = true
      · simp [hz, UInt32.le_iff_toNat_le]
      · simp [hz]
    rcases htr.recv_split _ _ _ _ _ _ h0 with ⟨h, _⟩ | ⟨h, _⟩ | ⟨_, t, rest, h1, h2 | h2⟩
    · omega
    · omega
    · obtain ⟨h2, seg, er, ep, rfl, hs, h3⟩ := h2
      refine ⟨t, _, h1, ?_⟩
      rw [← hT]
      have : recvs (.parserCall off [] :: seg) = [] := by simp [recvs, hs.received.2.2]
      simp only [this, h2, iff_true, true_and]
      rw [Ne, ← ho, h3]; simp
    · obtain ⟨h2, h3⟩ := h2
      refine ⟨t, _, h1, ?_⟩
      rw [← hT]
      simp only [h2, iff_false, not_and]
      intro hr
      rcases h3.starts with ⟨_, h4⟩ | ⟨off', len', ret', data', rest', h4⟩
      · simp [ho.mp h4]
      · rw [h4] at hr; simp [recvs] at hr
  obtain ⟨t, post', h1, h2⟩ := key
  refine ⟨t, post', h1, h2, ?_⟩
  intro now0 now1 e0 e1 hle hlt hz
  rw [h2, e0, e1, clock_ge hle hlt]
  simp [hz]

/-- The flag test of the library. -/
theorem headersOnly_iff (f : UInt32) : (f &&& DO_NOT_PARSE_BODY_FLAG ≠ 0) ↔ headersOnly f := by
  unfold headersOnly DO_NOT_PARSE_BODY_FLAG
  rw [Ne, ← UInt32.toNat_inj, UInt32.toNat_and]
  have : (1 : UInt32).toNat = 1 := rfl
  rw [this, Nat.and_one_is_mod]
  have : (0 : UInt32).toNat = 0 := rfl
  omega

/-- **C35.** When a call of the parser ends with an error or a pause, or with a complete message, there is no further receive call and the call
returns. -/
theorem C35_stops_at_end {w : World PLog σ} (hp : RecvPre strict P cfg T recv resp rh b rb w.mem) (fuel : Nat) :
    ∃ r w' evs, HTTPClient_ReceiveAndParseHttpResponse P cfg fuel (some T) (some resp) (some rh) w = (r, w') ∧ w'.log = w.log ++ evs ∧
      ∀ pre er ep post, evs = pre ++ .parserEvent (.ret er ep) :: post → er ≠ .ok ∨ msgState pre = .complete →
        post = [] ∧ r ≠ .more := by
  obtain ⟨r, w', t0, tr, e, hl, hev, hfr, h⟩ := receive_spec hp fuel
  refine ⟨r, w', _, e, hl, ?_⟩
  intro pre er ep post h0 hstop
  rcases split_cons h0 with ⟨_, h1, _⟩ | ⟨pre', rfl, h0'⟩
  · cases h1
  rcases h with ⟨rfl, h1⟩ | ⟨lst, total, h, st, resp', rfl, h1, h2, h3⟩
  · rcases h1.ret_split _ _ _ _ h0' with ⟨_, h2⟩ | ⟨h2, h3, _⟩
    · cases h2
    · exact absurd hstop (by simp [h2]; exact h3)
  · rcases h1.ret_split _ _ _ _ h0' with ⟨h4, _⟩ | ⟨h4, h5, _⟩
    · exact ⟨h4, by simp⟩
    · exact absurd hstop (by simp [h4]; exact h5)

/-- What is known about a returning call, in one place: how it ended. -/
theorem returned_why {w w' : World PLog σ} {t0 : UInt32} {tr : List (Ev PLog)} {lst st : Status} {total : Nat} {h : RS P.St σ} {resp' : Resp σ}
    (h1 : RecvTrace (retryTimeout resp.getTime cfg.recvTimeoutMs) resp.bufferLen [.time t0] t0 tr (some lst))
    (h2 : Final P cfg strict b resp (startsHead w.mem rb) w.mem w.log lst total (.time t0 :: tr) h w') (h3 : Finished lst total h st resp')
    {pre : List (Ev PLog)} {er : Errno} {ep : Nat} (he : .time t0 :: tr = pre ++ [.parserEvent (.ret er ep)]) :
    lst = processLlhttpError er ∧ er ≠ .invalidEofState ∧
    st = (if er = .paused then .success else if er = .ok ∨ er = .pausedUpgrade then
        finalStatus (msgState (.time t0 :: tr)) (decide ((received (.time t0 :: tr)).length = resp.bufferLen))
          (decide (resp.respOptionFlags &&& DO_NOT_PARSE_BODY_FLAG ≠ 0)) else processLlhttpError er) := by
  rcases split_cons he with ⟨_, h4, _⟩ | ⟨pre', rfl, he'⟩
  · cases h4
  have hlst : lst = processLlhttpError er := by
    rcases h1.ret_split _ _ _ _ he' with ⟨_, h4⟩ | ⟨_, _, last', h4⟩
    · simpa using h4
    · rcases h4.starts with ⟨_, h5⟩ | ⟨_, _, _, _, _, h5⟩
      · cases h5
      · cases h5
  have hne : er ≠ .invalidEofState := h2.noEof er ep (by rw [he]; simp)
  refine ⟨hlst, hne, ?_⟩
  rcases returned h2 h3 with ⟨_, h4, _⟩ | ⟨ph, base, lo, ht, hp1, hp2, h4, h5⟩
  · rw [hlst] at h4; exact absurd h4 (processLlhttpError_network er)
  · rw [h5, hlst]
    by_cases e1 : er = .paused
    · subst e1; rfl
    · rw [if_neg e1, if_neg (fun h => e1 (processLlhttpError_paused.mp h))]
      by_cases e2 : er = .ok ∨ er = .pausedUpgrade
      · rw [if_pos e2, if_pos (by rcases e2 with rfl | rfl <;> rfl)]
      · rw [if_neg e2, if_neg (fun h => e2 (processLlhttpError_success h hne))]

/-- **C37.** When receiving ended without error (the last thing that happened is a parse without error) and HTTP_RESPONSE_DO_NOT_PARSE_BODY_FLAG
is clear: the status tells whether a message had begun, is complete, or filled the buffer. -/
theorem C37_classified {w : World PLog σ} (hp : RecvPre strict P cfg T recv resp rh b rb w.mem) (fuel : Nat)
    (hflag : ¬ headersOnly resp.respOptionFlags) :
    ∃ r w' evs, HTTPClient_ReceiveAndParseHttpResponse P cfg fuel (some T) (some resp) (some rh) w = (r, w') ∧ w'.log = w.log ++ evs ∧
      ∀ st resp', r = .ok (st, resp') → ∀ pre ep, evs = pre ++ [.parserEvent (.ret .ok ep)] →
        (st = .noResponse ↔ msgState evs = .none) ∧
        (st = .insufficientMemory ↔ msgState evs = .incomplete ∧ (received evs).length = resp.bufferLen) ∧
        (st = .partialResponse ↔ msgState evs = .incomplete ∧ (received evs).length < resp.bufferLen) ∧
        (st = .success ↔ msgState evs = .complete) := by
  obtain ⟨r, w', t0, tr, e, hl, hev, hfr, h⟩ := receive_spec hp fuel
  refine ⟨r, w', _, e, hl, ?_⟩
  intro st resp' hr pre ep he
  rcases h with ⟨rfl, h1⟩ | ⟨lst, total, h, st, resp', rfl, h1, h2, h3⟩
  · cases hr
  simp only [Run.ok.injEq, Prod.mk.injEq] at hr
  obtain ⟨rfl, rfl⟩ := hr
  obtain ⟨_, _, h4⟩ := returned_why h1 h2 h3 he
  have hle := received_le hev
  rw [if_neg (by simp), if_pos (.inl rfl), decide_eq_false (fun h => hflag ((headersOnly_iff _).mp h))] at h4
  rw [h4]
  unfold finalStatus
  generalize (received (Ev.time t0 :: tr)).length = n at *
  cases msgState (Ev.time t0 :: tr) <;> simp
  by_cases hn : n = resp.bufferLen
  · simp [hn]
  · simp [hn]; omega

/-- **C37, no room at all.** HTTPClient_ReceiveAndParseHttpResponse called with a response buffer of 0 bytes (HTTPClient_Send does not
accept this) calls the receive function once; if that delivers nothing in less than the retry timeout, HTTPNoResponse is returned at once. -/
theorem C37_empty_buffer {f : σ → UInt32 × σ} {w : World PLog σ} (hasRecv : T.recv = some recv) (buf : resp.pBuffer = some b) (h0 : resp.bufferLen = 0)
    (hc : resp.getTime = .user f) (reqBuf : rh.pBuffer = some rb) (reqLen : 16 ≤ rh.headersLen) (reqRoom : rh.headersLen ≤ (w.mem rb).length)
    {ret : Int} {s' : σ} (hx : recv (f w.env).2 0 = (ret, [], s')) (fuel : Nat) :
    (ret < 0 → (HTTPClient_ReceiveAndParseHttpResponse P cfg (fuel + 1) (some T) (some resp) (some rh) w).1 = .ok (.networkError, resp)) ∧
    (ret = 0 → (f s').1 - (f w.env).1 < cfg.recvTimeoutMs →
      (HTTPClient_ReceiveAndParseHttpResponse P cfg (fuel + 1) (some T) (some resp) (some rh) w).1 = .ok (.noResponse, resp)) := by
  have hmem : memRead (w.mem rb) 0 METHOD_HEAD.length = .ok ((w.mem rb).take 4) := by
    have h4 : METHOD_HEAD.length = 4 := by decide
    rw [memRead_ok (by omega), h4]; rfl
  have hA : (mAssert 1005 (decide (MINIMUM_REQUEST_LINE_LENGTH ≤ rh.headersLen)) : M PLog σ Unit) = mAssert 1005 true := by
    rw [decide_eq_true (show MINIMUM_REQUEST_LINE_LENGTH ≤ rh.headersLen from reqLen)]
  have hwr : memWrite (w.mem b) 0 ([] : Bytes) = .ok (w.mem b) := by simp [memWrite, splice]
  have ht : retryTimeout resp.getTime cfg.recvTimeoutMs = cfg.recvTimeoutMs := by rw [hc]; rfl
  unfold HTTPClient_ReceiveAndParseHttpResponse
  simp only [hasRecv, buf, initializeParsingContext, reqBuf, M.bind_apply, hA, mAssert_true, M.world_apply, M.ofRun_apply, hmem, M.pure_apply, ht]
  rw [hc]
  simp only [readClock, M.bind_apply, M.world_apply, M.setEnv_apply, M.emit_apply, M.pure_apply]
  unfold recvLoop
  simp only [M.bind_apply, M.world_apply, h0, Nat.sub_self, hx, hwr, M.ofRun_apply, M.setEnv_apply, M.setMem_apply, M.emit_apply]
  constructor
  · intro hneg
    simp only [if_pos hneg, M.pure_apply, finishReceive, M.bind_apply]
    simp
  · rintro rfl hlt
    have hge : ¬ (f s').1 - (f w.env).1 ≥ cfg.recvTimeoutMs := by
      intro h
      rw [UInt32.lt_iff_toNat_lt] at hlt
      have := UInt32.le_iff_toNat_le.mp h
      omega
    simp [hc, readClock, hge, finishReceive, getFinalResponseStatus]

/-- **C36, partial** (missing: the flag case, for which it is false; C36_flag_success says what holds then). With HTTP_RESPONSE_DO_NOT_PARSE_BODY_FLAG clear, HTTPSuccess means that the
parser accepted everything and the message is complete, including its header section. With the flag set, HTTPSuccess means that a message has at
least begun, and every parse succeeded. -/
theorem C36_success_complete_partial {w : World PLog σ} (hp : RecvPre strict P cfg T recv resp rh b rb w.mem) (fuel : Nat) :
    ∃ r w' evs, HTTPClient_ReceiveAndParseHttpResponse P cfg fuel (some T) (some resp) (some rh) w = (r, w') ∧ w'.log = w.log ++ evs ∧
      ∀ resp', r = .ok (.success, resp') →
        (¬ headersOnly resp.respOptionFlags → msgState evs = .complete ∧ (view (obsOf evs)).contentLength.isSome) ∧
        (headersOnly resp.respOptionFlags → msgState evs ≠ .none) ∧
        (∀ er ep, .parserEvent (.ret er ep) ∈ evs → er = .ok ∨ er = .pausedUpgrade ∨ er = .paused) := by
  obtain ⟨r, w', t0, tr, e, hl, hev, hfr, h⟩ := receive_spec hp fuel
  refine ⟨r, w', _, e, hl, ?_⟩
  intro resp' hr
  rcases h with ⟨rfl, h1⟩ | ⟨lst, total, h, st, resp', rfl, h1, h2, h3⟩
  · cases hr
  simp only [Run.ok.injEq, Prod.mk.injEq] at hr
  obtain ⟨rfl, rfl⟩ := hr
  have hrets : ∀ er ep, .parserEvent (.ret er ep) ∈ Ev.time t0 :: tr → er = .ok ∨ er = .pausedUpgrade ∨ er = .paused := by
    intro er ep hm
    obtain ⟨p1, p2, hsp⟩ := List.append_of_mem hm
    have hne : er ≠ .invalidEofState := h2.noEof er ep hm
    rcases split_cons hsp with ⟨_, h4, _⟩ | ⟨pre', rfl, he'⟩
    · cases h4
    rcases h1.ret_split _ _ _ _ he' with ⟨rfl, _⟩ | ⟨h4, _⟩
    · obtain ⟨_, _, h5⟩ := returned_why h1 h2 h3 hsp
      by_cases e1 : er = .paused
      · exact .inr (.inr e1)
      · rw [if_neg e1] at h5
        by_cases e2 : er = .ok ∨ er = .pausedUpgrade
        · rcases e2 with e2 | e2
          · exact .inl e2
          · exact .inr (.inl e2)
        · rw [if_neg e2] at h5
          exact absurd (processLlhttpError_success h5.symm hne) e2
    · exact .inl h4
  refine ⟨?_, ?_, hrets⟩
  · intro hf
    have hnf : ¬ (resp.respOptionFlags &&& DO_NOT_PARSE_BODY_FLAG ≠ 0) := fun h => hf ((headersOnly_iff _).mp h)
    rcases returned h2 h3 with ⟨h4, _⟩ | ⟨ph, base, lo, ht, hp1, hp2, h4, h5⟩
    · cases h4
    have hnp : lst ≠ .parserPaused := fun h => hnf (ht.pausedAt (hp1.mp h)).1
    rw [if_neg hnp] at h5
    by_cases hs : lst = .success
    · rw [if_pos hs, decide_eq_false hnf] at h5
      have hc : msgState (.time t0 :: tr) = .complete := by
        revert h5
        unfold finalStatus
        cases msgState (.time t0 :: tr) <;> simp
        split <;> simp
      refine ⟨hc, ?_⟩
      apply ht.x.late
      have hpr := ht.prog
      unfold msgState at hc
      rw [hc] at hpr
      cases ph <;> simp [Phase.msg] at hpr <;> trivial
    · rw [if_neg hs] at h5; exact absurd h5.symm hs
  · intro hf hnone
    rcases returned h2 h3 with ⟨h4, _⟩ | ⟨ph, base, lo, ht, hp1, hp2, h4, h5⟩
    · cases h4
    have hpr := ht.prog
    unfold msgState at hnone
    rw [hnone] at hpr
    have hid : ph = .idle := by cases ph <;> simp [Phase.msg] at hpr <;> rfl
    have hnp : lst ≠ .parserPaused := fun h => by have := hp1.mp h; rw [hid] at this; cases this
    rw [if_neg hnp] at h5
    by_cases hs : lst = .success
    · rw [if_pos hs] at h5
      unfold msgState at h5
      rw [hnone] at h5; cases h5
    · rw [if_neg hs] at h5; exact absurd h5.symm hs

/-- **C36, the flag case exactly.** With HTTP_RESPONSE_DO_NOT_PARSE_BODY_FLAG, HTTPSuccess means that the header section is complete – or that a message
has begun and receiving ended early, because the response buffer is full or because the last receive call delivered nothing (and the retry timeout
expired). -/
theorem C36_flag_success {w : World PLog σ} (hp : RecvPre strict P cfg T recv resp rh b rb w.mem) (fuel : Nat)
    (hflag : headersOnly resp.respOptionFlags) :
    ∃ r w' evs, HTTPClient_ReceiveAndParseHttpResponse P cfg fuel (some T) (some resp) (some rh) w = (r, w') ∧ w'.log = w.log ++ evs ∧
      ∀ resp', r = .ok (.success, resp') →
        (view (obsOf evs)).contentLength.isSome ∨
        (msgState evs = .incomplete ∧
          ((received evs).length = resp.bufferLen ∨
           ∃ pre off len t seg, evs = pre ++ .recv off len 0 [] :: .time t :: .parserCall off [] :: seg ∧ recvs seg = [])) := by
  obtain ⟨r, w', t0, tr, e, hl, hev, hfr, h⟩ := receive_spec hp fuel
  refine ⟨r, w', _, e, hl, ?_⟩
  intro resp' hr
  rcases h with ⟨rfl, h1⟩ | ⟨lst, total, h, st, resp', rfl, h1, h2, h3⟩
  · cases hr
  simp only [Run.ok.injEq, Prod.mk.injEq] at hr
  obtain ⟨rfl, rfl⟩ := hr
  rcases returned h2 h3 with ⟨h4, _⟩ | ⟨ph, base, lo, ht, hp1, hp2, h4, h5⟩
  · cases h4
  by_cases hpa : lst = .parserPaused
  · exact .inl (ht.x.late (by rw [hp1.mp hpa]; trivial))
  rw [if_neg hpa] at h5
  by_cases hs : lst = .success
  · rw [if_pos hs] at h5
    by_cases hc : msgState (.time t0 :: tr) = .complete
    · refine .inl (ht.x.late ?_)
      have hpr := ht.prog
      unfold msgState at hc
      rw [hc] at hpr
      cases ph <;> simp [Phase.msg] at hpr <;> trivial
    · refine .inr ⟨?_, ?_⟩
      · revert h5 hc
        unfold finalStatus
        cases msgState (.time t0 :: tr) <;> simp
      · by_cases hfull : (received (.time t0 :: tr)).length = resp.bufferLen
        · exact .inl hfull
        · right
          rcases h1.ends _ rfl with ⟨h6, _⟩ | ⟨pre, er, ep, h6, h7⟩
          · rw [hs] at h6; cases h6
          · obtain ⟨pre1, off, len, t, seg, h8, ⟨s0, rfl, h9⟩, _⟩ := h1.stop_why pre er ep h6 (by simp) (by rw [← h7]; exact hs)
              (by simpa using hc) (by simpa using hfull)
            exact ⟨.time t0 :: pre1, off, len, t, _, by rw [h8]; rfl, by rw [recvs_append, (inParse_received h9).2.2]; rfl⟩
  · rw [if_neg hs] at h5; exact absurd h5.symm hs

/-- **C38.** A parser error that ends receiving is reported as the documented status, never as success; a parse without error (or a pause the
library asked for) is never reported as an error. -/
theorem C38_errors_mapped {w : World PLog σ} (hp : RecvPre strict P cfg T recv resp rh b rb w.mem) (fuel : Nat) :
    ∃ r w' evs, HTTPClient_ReceiveAndParseHttpResponse P cfg fuel (some T) (some resp) (some rh) w = (r, w') ∧ w'.log = w.log ++ evs ∧
      ∀ pre er ep post, evs = pre ++ .parserEvent (.ret er ep) :: post →
        (er ≠ .ok → post = [] ∧ ∃ st resp', r = .ok (st, resp') ∧ (er ≠ .paused → er ≠ .pausedUpgrade → Alert er st ∧ st ≠ .success)) ∧
        (er = .ok ∨ er = .paused ∨ er = .pausedUpgrade → post = [] → ∀ st resp', r = .ok (st, resp') →
          st = .success ∨ st = .noResponse ∨ st = .insufficientMemory ∨ st = .partialResponse) := by
  obtain ⟨r, w', t0, tr, e, hl, hev, hfr, h⟩ := receive_spec hp fuel
  refine ⟨r, w', _, e, hl, ?_⟩
  intro pre er ep post he
  rcases split_cons he with ⟨_, h4, _⟩ | ⟨pre', rfl, he'⟩
  · cases h4
  rcases h with ⟨rfl, h1⟩ | ⟨lst, total, h, st, resp', rfl, h1, h2, h3⟩
  · refine ⟨?_, fun _ _ st resp' h => by cases h⟩
    intro hne
    rcases h1.ret_split _ _ _ _ he' with ⟨_, h5⟩ | ⟨h5, _⟩
    · cases h5
    · exact absurd h5 hne
  refine ⟨?_, ?_⟩
  · intro hne
    rcases h1.ret_split _ _ _ _ he' with ⟨rfl, _⟩ | ⟨h5, _⟩
    · obtain ⟨_, hnoe, h5⟩ := returned_why h1 h2 h3 he
      refine ⟨rfl, st, resp', rfl, ?_⟩
      intro hp1 hp2
      rw [if_neg hp1, if_neg (by simp [hne, hp2])] at h5
      rw [h5]
      cases er <;> simp only [processLlhttpError, ne_eq, reduceCtorEq, not_false_eq_true, and_true] at * <;>
        first | exact .extraneous | exact .chunk | exact .version | exact .status | exact .char _ (by simp) | exact .length _ (by simp) |
          exact .internal _ (by simp) | (exfalso; simp_all)
    · exact absurd h5 hne
  · rintro hok rfl st1 resp1 hr
    simp only [Run.ok.injEq, Prod.mk.injEq] at hr
    obtain ⟨rfl, rfl⟩ := hr
    obtain ⟨_, hnoe, h5⟩ := returned_why h1 h2 h3 he
    by_cases e1 : er = .paused
    · rw [if_pos e1] at h5; exact .inl h5
    · rw [if_neg e1, if_pos (by rcases hok with h | h | h; exact .inl h; exact absurd h e1; exact .inr h)] at h5
      rw [h5]
      exact finalStatus_cases _ _ _

/-! ## C34: termination -/

theorem finishReceive_nm {S : Type} (cfg : Cfg) (st : Status) (total : Nat) (h : RS S σ) : NoMore (finishReceive cfg st total h) fun _ => True := by
  unfold finishReceive
  refine .bind (Q := fun _ => True) ?_ fun x _ => ?_
  · split
    · cases h.ctx.cur with
      | none => exact .fault
      | some c => exact .pure trivial
    · exact .pure trivial
  · dsimp only
    split
    · refine .bind (Q := fun _ => True) ?_ fun _ _ => .pure trivial
      unfold getFinalResponseStatus
      exact .bind (.assert _ _) fun _ _ => .pure trivial
    · exact .pure trivial

/-- **C34.** If every empty receive takes at least 1 ms and less than 2^32 − timeout ms, receiving returns within
bufferLen · (timeout + 2) + timeout + 2 receive calls, whatever the parser, the server and the header callback do. -/
theorem C34_terminates {w : World PLog σ} (hp : RecvPre strict P cfg T recv resp rh b rb w.mem) {f : σ → UInt32 × σ} {now : σ → Nat}
    (hc : resp.getTime = .user f) (hck : ClockOk now f) (htime : RecvTakesTime now f recv (4294967296 - cfg.recvTimeoutMs.toNat)) {fuel : Nat}
    (hfuel : resp.bufferLen * (cfg.recvTimeoutMs.toNat + 2) + cfg.recvTimeoutMs.toNat + 2 ≤ fuel) :
    (HTTPClient_ReceiveAndParseHttpResponse P cfg fuel (some T) (some resp) (some rh) w).1 ≠ .more := by
  obtain ⟨t0, s0, ht0⟩ := readClock_ok hp.clock w
  have hret : retryTimeout resp.getTime cfg.recvTimeoutMs = cfg.recvTimeoutMs := by rw [hc]; rfl
  rw [receive_start hp fuel ht0, hret]
  have hz := zeroBudget_le cfg.recvTimeoutMs (UInt32.ofNat (now s0) - t0)
  refine NoMore.bindAt ?_ fun x => finishReceive_nm cfg x.1 x.2.1 x.2.2
  exact recvLoop_terminates (P := P) (cfg := cfg) hp.recvOk hck htime b fuel 0 t0
    ⟨resp, ⟨P.init, .none, false, startsHead w.mem rb, none, none, 0, none, 0⟩⟩ ⟨s0, w.mem, w.log ++ [.time t0]⟩ hc
    (by dsimp only; rw [Nat.sub_zero]; omega)

/-- **C34 without a user clock**: at most bufferLen + 1 calls. -/
theorem C34_terminates_noclock {w : World PLog σ} (hp : RecvPre strict P cfg T recv resp rh b rb w.mem)
    (hc : resp.getTime = .zero) {fuel : Nat} (hfuel : resp.bufferLen + 1 ≤ fuel) :
    (HTTPClient_ReceiveAndParseHttpResponse P cfg fuel (some T) (some resp) (some rh) w).1 ≠ .more := by
  obtain ⟨t0, s0, ht0⟩ := readClock_ok hp.clock w
  have hret : retryTimeout resp.getTime cfg.recvTimeoutMs = 0 := by rw [hc]; rfl
  rw [receive_start hp fuel ht0, hret]
  refine NoMore.bindAt ?_ fun x => finishReceive_nm cfg x.1 x.2.1 x.2.2
  exact recvLoop_terminates0 (P := P) (cfg := cfg) hp.recvOk b fuel 0 t0
    ⟨resp, ⟨P.init, .none, false, startsHead w.mem rb, none, none, 0, none, 0⟩⟩ ⟨s0, w.mem, w.log ++ [.time t0]⟩ hp.clock
    (by dsimp only; omega)

end CoreHttp.Props

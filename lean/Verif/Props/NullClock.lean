import Verif.Props.SendRecv
import Verif.Props.ReceiveEx

/-! # C85: a response object without a clock

core_http_client.h:495–510: HTTPResponse_t.getTime is optional; "If this field is set to NULL, then network send and receive won't be retried after a zero is
returned." -/

namespace CoreHttp.Props
open CoreHttp Spec Ref
variable {π σ : Type} {P : Parser} {cfg : Cfg} {strict : Bool} {T : Transport σ} {send : σ → Bytes → Int × σ} {recv : σ → Nat → Int × Bytes × σ}
  {resp : Resp σ} {rh : ReqHeaders} {b rb : Nat} {body : Option Nat} {n : Nat} {flags : UInt32}

theorem sendTrace_noRetry {rem : Bytes} {last : UInt32} {evs : List (Ev π)} {o : Run Status} (h : SendTrace 0 rem last evs o) :
    ∀ pre d post, evs = pre ++ .send d 0 :: post → (∃ t, post = [.time t]) ∧ o = .ok .networkError := by
  induction h with
  | done last => intro pre d post h; cases pre <;> cases h
  | cut h => intro pre d post h; cases pre <;> cases h
  | err h hr =>
    intro pre d post h
    rcases split_cons h with ⟨_, h1, h2⟩ | ⟨pre', _, h1⟩
    · cases h1; omega
    · cases pre' <;> cases h1
  | @progress rem last ret t evs o h hr hle k ih =>
    intro pre d post h
    rcases split_cons h with ⟨_, h1, h2⟩ | ⟨pre', _, h1⟩
    · cases h1; omega
    · rcases split_cons h1 with ⟨_, h1, _⟩ | ⟨pre', _, h1⟩
      · cases h1
      · exact ih _ _ _ h1
  | @retry rem last t evs o h hr k ih => exact absurd (UInt32.zero_le) hr
  | @timeout rem last t h hr =>
    intro pre d post h
    rcases split_cons h with ⟨_, h1, h2⟩ | ⟨pre', _, h1⟩
    · exact ⟨⟨t, h2.symm⟩, rfl⟩
    · rcases split_cons h1 with ⟨_, h1, _⟩ | ⟨pre', _, h1⟩
      · cases h1
      · cases pre' <;> cases h1

theorem sendRequest_noRetry {w : World π σ} (hp : CallPre strict P cfg T send recv rh rb body n resp b w.mem) (fuel : Nat) :
    ∃ r s' m' evs, sendHttpRequest cfg fuel (some T) .zero (some rh) body n flags w = (r, ⟨s', m', w.log ++ evs⟩) ∧
      ∀ pre d post, evs = pre ++ .send d 0 :: post → (∃ t, post = [.time t]) ∧ ∃ x, r = .ok (.networkError, x) := by
  have pre : SendPre cfg T send .zero w.mem rh rb := ⟨hp.hasSend, hp.sendOk, (by intro h; cases h), ⟨hp.reqBuf, hp.reqRoom⟩, hp.reqLe, hp.reqSize⟩
  have hmax := hp.bodyMax
  have a1 : (body.isSome || decide (n = 0)) = true := by
    cases hb : body with
    | none => simp [hp.bodyNone hb]
    | some bb => simp
  have start : sendHttpRequest cfg fuel (some T) .zero (some rh) body n flags w =
      (HTTPClient_SendHttpHeaders cfg fuel (some T) .zero (some rh) n flags >>= fun r =>
        if r.1 = .success then
          match body with
          | some b => do
            let st ← sendHttpBody cfg fuel (some T) .zero (some b) n
            pure (st, r.2)
          | none => pure r
        else pure r) w := by
    unfold sendHttpRequest
    rw [a1]; rfl
  have hz : retryTimeout (.zero : TimeFn σ) cfg.sendTimeoutMs = 0 := rfl
  rw [start]
  by_cases hfit : (wireHeaders (headerBlock w.mem rh) n flags.toNat).length ≤ rh.bufferLen
  · obtain ⟨h', m', hb, hbl, hle, hfr, hB, hlen, _, e⟩ := sendHeaders_fit (fuel := fuel) pre hmax hfit
    have hml : h'.headersLen ≤ (m' rb).length := by rw [hfr.2.1]; have := hp.reqRoom; omega
    obtain ⟨r, s', t0, evs, e2, tr⟩ := sendData_trace (cfg := cfg) (fuel := fuel) (w := ⟨w.env, m', w.log⟩) pre.transport pre.sendOk
      pre.clockOk hml
    dsimp only at e2 tr
    rw [hz] at tr
    have hn := sendTrace_noRetry tr
    have hn' : ∀ pre d post, Ev.time t0 :: evs = pre ++ .send d 0 :: post → (∃ t, post = [.time t]) ∧ r = .ok .networkError := by
      intro pre d post h
      rcases split_cons h with ⟨_, h1, _⟩ | ⟨pre', _, h1⟩
      · cases h1
      · exact hn _ _ _ h1
    simp only [M.bind_apply, e, e2]
    rcases tr.outcome with rfl | rfl | rfl
    · cases hbody : body with
      | none =>
        refine ⟨_, _, _, _, rfl, fun pre d post h => ?_⟩
        cases (hn' _ _ _ h).2
      | some bb =>
        obtain ⟨hbr, hbne⟩ := hp.bodyRoom bb hbody
        have hmb : m' bb = w.mem bb := hfr.1 bb hbne
        obtain ⟨r, s'', t1, evs1, e3, tr1⟩ := sendData_trace (cfg := cfg) (fuel := fuel) (w := ⟨s', m', w.log ++ .time t0 :: evs⟩)
          pre.transport pre.sendOk pre.clockOk (b := bb) (len := n) (by dsimp only; rw [hmb]; exact hbr)
        dsimp only at e3 tr1
        rw [hz] at tr1
        have e4 : sendHttpBody cfg fuel (some T) .zero (some bb) n ⟨s', m', w.log ++ .time t0 :: evs⟩ =
            (r, ⟨s'', m', w.log ++ (.time t0 :: evs ++ .time t1 :: evs1)⟩) := by
          unfold sendHttpBody
          simp only [pre.transport]
          rw [e3]; simp
        have hn1 : ∀ pre d post, Ev.time t0 :: evs ++ Ev.time t1 :: evs1 = pre ++ .send d 0 :: post → (∃ t, post = [.time t]) ∧ r = .ok .networkError := by
          intro pre d post h
          rcases split_append h with ⟨post', h1, _⟩ | ⟨pre', rfl, h1⟩
          · cases (hn' _ _ _ h1).2
          · rcases split_cons h1 with ⟨_, h1, _⟩ | ⟨pre', _, h1⟩
            · cases h1
            · exact sendTrace_noRetry tr1 _ _ _ h1
        simp only [M.pure_apply, if_true, M.bind_apply, e4]
        rcases tr1.outcome with rfl | rfl | rfl
        · refine ⟨_, _, _, _, rfl, fun pre d post h => ?_⟩
          cases (hn1 _ _ _ h).2
        · exact ⟨_, _, _, _, rfl, fun pre d post h => ⟨(hn1 _ _ _ h).1, _, rfl⟩⟩
        · refine ⟨_, _, _, _, rfl, fun pre d post h => ?_⟩
          cases (hn1 _ _ _ h).2
    · exact ⟨_, _, _, _, rfl, fun pre d post h => ⟨(hn' _ _ _ h).1, _, rfl⟩⟩
    · refine ⟨_, _, _, _, rfl, fun pre d post h => ?_⟩
      cases (hn' _ _ _ h).2
  · have := sendHeaders_nofit (fuel := fuel) (flags := flags) pre hmax (by omega)
    simp only [M.bind_apply, this]
    exact ⟨.ok (.insufficientMemory, some rh), w.env, w.mem, [], by simp, fun pre d post h => by cases pre <;> cases h⟩

/-- **C85, partial.** HTTPClient_Send (missing: the calls it is made of) with a response object whose getTime is NULL: no call through a NULL pointer or any
other fault; a send that accepts nothing is the last thing that happens but for one reading of the substituted clock, and HTTPNetworkError is returned; after
a receive that delivers nothing there is no other receive. -/
theorem C85_send_partial {w : World PLog σ} (hp : CallPre strict P cfg T send recv rh rb body n resp b w.mem) (hc : resp.getTime = .null) (fuel : Nat) :
    ∃ r w' evs, HTTPClient_Send P cfg fuel (some T) (some rh) body n (some resp) flags w = (r, w') ∧ w'.log = w.log ++ evs ∧ (∀ f, r ≠ .fault f) ∧
      (∀ pre d post, evs = pre ++ .send d 0 :: post → (∃ t, post = [.time t]) ∧ ∃ x, r = .ok (.networkError, x)) ∧
      (∀ pre off len d post, evs = pre ++ .recv off len 0 d :: post → recvs post = []) := by
  have hwc : (withClock resp).getTime = .zero := by unfold withClock; rw [hc]
  obtain ⟨rf, wf, ef, hf, _⟩ := C60_safe (flags := flags) hp fuel
  obtain ⟨r1, s1, m1, evs1, e1, hn1⟩ := sendRequest_noRetry (flags := flags) hp fuel
  rw [ef]
  have heq := send_eq (flags := flags) hp fuel
  rw [ef, hwc] at heq
  simp only [M.bind_apply, e1] at heq
  rcases sendRequest_spec (flags := flags) (clock := .zero) (by intro h; cases h) hp fuel with ⟨_, h2⟩ | ⟨_, r, s', m', rh', evs, e, hfr, hb, hbl, hle, hB, hlen, h2⟩
  · rw [e1] at h2
    obtain ⟨rfl, h3⟩ := Prod.mk.inj h2
    dsimp only at heq
    rw [if_neg (by decide)] at heq
    obtain ⟨rfl, rfl⟩ := Prod.mk.inj heq
    refine ⟨_, _, evs1, rfl, rfl, hf, fun pre d post h => ?_, fun pre off len d post h => ?_⟩
    · obtain ⟨_, x, hx⟩ := hn1 _ _ _ h; cases hx
    · have hl : w.log ++ evs1 = w.log := congrArg World.log h3
      have : evs1 = [] := by simpa using hl
      rw [this] at h; cases pre <;> cases h
  · rw [e1] at e
    obtain ⟨rfl, h3⟩ := Prod.mk.inj e
    obtain ⟨rfl, rfl, h4⟩ : s1 = s' ∧ m1 = m' ∧ w.log ++ evs1 = w.log ++ evs :=
      ⟨congrArg World.env h3, congrArg World.mem h3, congrArg World.log h3⟩
    have : evs1 = evs := List.append_cancel_left h4
    subst this
    have hkinds : ∀ e ∈ evs1, e.isSending = true := by
      rcases h2 with ⟨_, h2⟩ | ⟨_, h2⟩ <;> exact h2.kinds
    have hnr : ∀ pre off len d post, evs1 = pre ++ .recv off len 0 d :: post → False := by
      intro pre off len d post h
      have := hkinds (.recv off len 0 d) (by rw [h]; simp)
      cases this
    rcases h2 with ⟨rfl, h2⟩ | ⟨rfl | rfl, h2⟩
    · dsimp only at heq
      rw [if_pos rfl] at heq
      have hr := recvPre_of hp hfr hb hbl hle hB hlen
      obtain ⟨r2, w2, evs2, e2, hl2, hns, _, _⟩ := receive_no_send (w := ⟨s1, m1, w.log ++ evs1⟩) hr fuel
      obtain ⟨r3, w3, t0, evs3, e3, hl3, h33⟩ := C33_timeout_exact (w := ⟨s1, m1, w.log ++ evs1⟩) hr fuel
      rw [e2] at e3
      obtain ⟨rfl, rfl⟩ := Prod.mk.inj e3
      have : evs2 = .time t0 :: evs3 := List.append_cancel_left (hl2.symm.trans hl3)
      subst this
      simp only [M.bind_apply, e2] at heq
      have hw : wf = w2 := by
        have := congrArg Prod.snd heq
        cases r2 <;> exact this
      subst hw
      refine ⟨_, _, evs1 ++ .time t0 :: evs3, rfl, by rw [hl2]; simp, hf, fun pre d post h => ?_, fun pre off len d post h => ?_⟩
      · rcases split_append h with ⟨post', h1, _⟩ | ⟨pre', rfl, h1⟩
        · obtain ⟨_, x, hx⟩ := hn1 _ _ _ h1; cases hx
        · exact absurd (by rw [h1]; simp) (hns d 0)
      · rcases split_append h with ⟨post', h1, _⟩ | ⟨pre', rfl, h1⟩
        · exact (hnr _ _ _ _ _ h1).elim
        · rcases split_cons h1 with ⟨_, h1, _⟩ | ⟨pre', _, h1⟩
          · cases h1
          · obtain ⟨t, post', rfl, h4, _⟩ := h33 _ _ _ _ _ h1
            exact (h4.mpr (.inl (by rw [hwc]; rfl))).1
    · dsimp only at heq
      rw [if_neg (by decide)] at heq
      obtain ⟨rfl, rfl⟩ := Prod.mk.inj heq
      refine ⟨_, _, evs1, rfl, rfl, hf, fun pre d post h => ⟨(hn1 _ _ _ h).1, _, rfl⟩, fun pre off len d post h => (hnr _ _ _ _ _ h).elim⟩
    · obtain ⟨rfl, rfl⟩ := Prod.mk.inj heq
      refine ⟨_, _, evs1, rfl, rfl, hf, fun pre d post h => ?_, fun pre off len d post h => (hnr _ _ _ _ _ h).elim⟩
      obtain ⟨_, x, hx⟩ := hn1 _ _ _ h; cases hx

/-- **C85, refuted.** HTTPClient_ReceiveAndParseHttpResponse with such a response object calls through the NULL pointer, whatever the other parameters are. -/
theorem C85_refuted_receive {w : World PLog σ} (hasRecv : T.recv = some recv) (hc : resp.getTime = .null) (reqBuf : rh.pBuffer = some rb)
    (reqLen : 16 ≤ rh.headersLen) (reqRoom : rh.headersLen ≤ (w.mem rb).length) (fuel : Nat) :
    (HTTPClient_ReceiveAndParseHttpResponse P cfg fuel (some T) (some resp) (some rh) w).1 = .fault .nullCall := by
  have h4 : METHOD_HEAD.length = 4 := by decide
  have hmem : memRead (w.mem rb) 0 METHOD_HEAD.length = .ok ((w.mem rb).take 4) := by
    rw [memRead_ok (by omega), h4]; rfl
  have hA : (mAssert 1005 (decide (MINIMUM_REQUEST_LINE_LENGTH ≤ rh.headersLen)) : M PLog σ Unit) = mAssert 1005 true := by
    rw [decide_eq_true (show MINIMUM_REQUEST_LINE_LENGTH ≤ rh.headersLen from reqLen)]
  unfold HTTPClient_ReceiveAndParseHttpResponse
  simp only [hasRecv, initializeParsingContext, reqBuf, M.bind_apply, hA, mAssert_true, M.world_apply, M.ofRun_apply, hmem, M.pure_apply, hc]
  rfl

/-- **C85, refuted (sending).** So does HTTPClient_SendHttpData when it is given the response object's NULL clock. -/
theorem C85_refuted_send {w : World π σ} (hs : T.send = some send) (fuel len : Nat) :
    (HTTPClient_SendHttpData cfg fuel (some T) .null (some b) len w).1 = .fault .nullCall := by
  unfold HTTPClient_SendHttpData
  simp only [hs]
  rfl

/-- The hypotheses are met. -/
example (w : World PLog Script) : (HTTPClient_ReceiveAndParseHttpResponse httpParser exCfg 50 (some scriptT) (some { exResp 200 0 with getTime := .null })
    (some (exReq exGet)) ⟨w.env, exRMem exGet 200, []⟩).1 = .fault .nullCall :=
  C85_refuted_receive (recv := scriptRecv) (rb := 0) rfl rfl rfl (by decide) (by show exGet.length ≤ exGet.length; exact Nat.le_refl _) 50

/-- An exchange without a clock: the first receive delivers nothing, and that is the only receive. -/
example : CallPre true httpParser exCfg scriptT (fun s d => (d.length, s)) scriptRecv ⟨some 0, 18, 18⟩ 0 none 0 { exResp 200 0 with getTime := .null } 1
    (exRMem exGet 200) where
  parser := httpParser_ok
  hasSend := rfl
  sendOk := by intro s d; simp
  hasRecv := rfl
  recvOk := scriptRecv_ok
  reqBuf := rfl
  reqRoom := by decide
  reqLen := by decide
  reqLe := by decide
  reqSize := by decide
  buf := rfl
  callback := by simp [exResp, exCb]
  pos := by decide
  room := Nat.le_of_eq (List.length_replicate (n := 200) (a := (0 : UInt8))).symm
  size := by decide
  bodyNone := fun _ => rfl
  bodyRoom := by intro bb h; cases h
  bodyMax := by decide
example : recvs (HTTPClient_Send httpParser exCfg 50 (some scriptT) (some ⟨some 0, 18, 18⟩) none 0 (some { exResp 200 0 with getTime := .null }) 0
    ⟨(0, [[], ascii "HTTP/1.1 204 No Content\r\n\r\n"]), exRMem exGet 200, []⟩).2.log = [(0, 200, 0, [])] := by decide +kernel

end CoreHttp.Props

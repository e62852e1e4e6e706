import Verif.Lemmas.SendRecv
import Verif.Props.Send
import Verif.Props.ReceiveEx

/-!
# Properties C26–C28: HTTPClient_Send

`CallPre` says what the caller must provide; `wireRequest` is what the request is on the wire (header block, with the Content-Length line where one is
added, and body).
-/

namespace CoreHttp.Props
open CoreHttp Spec
variable {σ : Type} {P : Parser} {cfg : Cfg} {strict : Bool} {T : Transport σ} {send : σ → Bytes → Int × σ} {recv : σ → Nat → Int × Bytes × σ}
  {resp : Resp σ} {rh : ReqHeaders} {b rb : Nat} {body : Option Nat} {n : Nat} {flags : UInt32}

theorem sending_kinds {evs : List (Ev PLog)} (h : ∀ e ∈ evs, e.isSending = true) :
    recvs evs = [] ∧ reported evs = [] ∧ calls evs = [] ∧ received evs = [] := by
  induction evs with
  | nil => exact ⟨rfl, rfl, rfl, rfl⟩
  | cons e es ih =>
    have h1 := ih fun e he => h e (List.mem_cons_of_mem _ he)
    have h2 := h e List.mem_cons_self
    cases e <;> simp [Ev.isSending] at h2 <;> exact h1

/-- The receiving part has no send events. -/
theorem receive_no_send {w : World PLog σ} (hp : RecvPre strict P cfg T recv resp rh b rb w.mem) (fuel : Nat) :
    ∃ r w' evs, HTTPClient_ReceiveAndParseHttpResponse P cfg fuel (some T) (some resp) (some rh) w = (r, w') ∧ w'.log = w.log ++ evs ∧
      (∀ d ret, Ev.send d ret ∉ evs) ∧ (∀ f, r ≠ .fault f) ∧
      FrameBuf w.mem w'.mem b resp.bufferLen := by
  obtain ⟨r, w', t0, tr, e, hl, hev, hfr, h⟩ := receive_spec hp fuel
  refine ⟨r, w', _, e, hl, ?_, ?_, hfr⟩
  · intro d ret hm
    obtain ⟨pre, post, h0⟩ := List.append_of_mem hm
    exact hev _ _ _ h0
  · rintro f rfl
    rcases h with ⟨h, _⟩ | ⟨_, _, _, _, _, h, _⟩ <;> cases h

/-- Everything about a call of HTTPClient_Send, on traces: sending events, then (only after everything was accepted) receiving events. -/
theorem send_trace {w : World PLog σ} (hp : CallPre strict P cfg T send recv rh rb body n resp b w.mem) (fuel : Nat) :
    ∃ r w' evs evs', HTTPClient_Send P cfg fuel (some T) (some rh) body n (some resp) flags w = (r, w') ∧ w'.log = w.log ++ (evs ++ evs') ∧
      SendPhase (wireHeaders (headerBlock w.mem rh) n flags.toNat) (bodyOf w.mem body n) evs (decide (evs' ≠ [])) ∧
      (∀ d ret, Ev.send d ret ∉ evs') := by
  rcases send_spec (flags := flags) hp fuel with ⟨_, h⟩ | ⟨_, s1, m1, rh', evs, hfr, hb, hbl, hB, hr, ⟨r, _, h, hph⟩ | ⟨h, hph⟩⟩
  · exact ⟨_, _, [], [], h, by simp, ⟨by simp, by simp [accepted], by simp, by simp⟩, by simp⟩
  · exact ⟨_, _, evs, [], h, by simp, by simpa using hph, by simp⟩
  · obtain ⟨r, w', evs', e, hl, hns, hnf, _⟩ := receive_no_send (w := ⟨s1, m1, w.log ++ evs⟩) hr fuel
    rw [h]
    simp only [M.bind_apply, e]
    refine ⟨(match r with | .ok a => .ok (a.1, some rh', some a.2) | .fault f => .fault f | .more => .more), w', evs, evs', ?_, ?_, ?_, hns⟩
    · cases r <;> rfl
    · rw [hl]; simp
    · exact ⟨hph.kinds, hph.prefix_, fun _ => hph.all_ rfl, hph.offered⟩

theorem sends_nil {evs : List (Ev PLog)} (h : ∀ d ret, Ev.send d ret ∉ evs) : sends evs = [] ∧ accepted evs = [] := by
  induction evs with
  | nil => exact ⟨rfl, rfl⟩
  | cons e es ih =>
    have h1 := ih fun d ret hm => h d ret (List.mem_cons_of_mem _ hm)
    cases e with
    | send d ret => exact absurd List.mem_cons_self (h d ret)
    | _ => exact h1

/-- **C26.** At every moment the accepted bytes are a prefix of header block followed by body. Every send call is offered either exactly the
rest of the header block, or – only when the whole header block was accepted – exactly the rest of the body; never an empty buffer. When the receive function is called,
every byte of header block and body has been accepted, and nothing is sent afterwards. -/
theorem C26_order {w : World PLog σ} (hp : CallPre strict P cfg T send recv rh rb body n resp b w.mem) (fuel : Nat) :
    ∃ r w' evs, HTTPClient_Send P cfg fuel (some T) (some rh) body n (some resp) flags w = (r, w') ∧ w'.log = w.log ++ evs ∧
      accepted evs <+: wireRequest w.mem rh body n flags ∧
      (∀ pre d ret post, evs = pre ++ .send d ret :: post → d ≠ [] ∧
        (accepted pre ++ d = wireHeaders (headerBlock w.mem rh) n flags.toNat ∨
         (wireHeaders (headerBlock w.mem rh) n flags.toNat <+: accepted pre ∧ accepted pre ++ d = wireRequest w.mem rh body n flags))) ∧
      (∀ pre off len ret data post, evs = pre ++ .recv off len ret data :: post →
        accepted pre = wireRequest w.mem rh body n flags ∧ sends post = []) := by
  obtain ⟨r, w', evs, evs', e, hl, hph, hns⟩ := send_trace (flags := flags) hp fuel
  refine ⟨r, w', evs ++ evs', e, hl, ?_, ?_, ?_⟩
  · rw [accepted_append', (sends_nil hns).2, List.append_nil]; exact hph.prefix_
  · intro pre d ret post h
    rcases split_append h with ⟨post', h1, _⟩ | ⟨pre', rfl, h1⟩
    · exact hph.offered _ _ _ _ h1
    · exact absurd (by rw [h1]; simp) (hns d ret)
  · intro pre off len ret data post h
    rcases split_append h with ⟨post', h1, _⟩ | ⟨pre', rfl, h1⟩
    · have := hph.kinds (.recv off len ret data) (by rw [h1]; simp)
      cases this
    · have h2 : evs' ≠ [] := by rw [h1]; simp
      have h3 : ∀ d ret, Ev.send d ret ∉ pre' := fun d ret hm => hns d ret (by rw [h1]; simp [hm])
      have h4 : ∀ d ret, Ev.send d ret ∉ post := fun d ret hm => hns d ret (by rw [h1]; simp [hm])
      rw [accepted_append', (sends_nil h3).2, List.append_nil]
      exact ⟨hph.all_ (by simpa using h2), (sends_nil h4).1⟩

/-- **C27, invalid parameters.** When a documented parameter condition is violated, HTTPInvalidParameter is returned and nothing else happens: no transport
call, no clock reading, no callback, no change of memory, request object or response object. No assumption about the environment. -/
theorem C27_invalid {T : Option (Transport σ)} {rh : Option ReqHeaders} {resp : Option (Resp σ)} (h : ¬ ParamsOk T rh body n resp)
    (fuel : Nat) (w : World PLog σ) :
    HTTPClient_Send P cfg fuel T rh body n resp flags w = (.ok (.invalidParameter, rh, resp), w) := by
  have h6 : MINIMUM_REQUEST_LINE_LENGTH = 16 := rfl
  unfold HTTPClient_Send
  rcases T with _ | T
  · rfl
  dsimp only
  rcases hs : T.send with _ | snd
  · rfl
  rcases hr : T.recv with _ | rcv
  · rfl
  rcases rh with _ | rh
  · rfl
  dsimp only
  rcases hb : rh.pBuffer with _ | rb
  · rfl
  simp only [Option.isNone_some, Bool.false_eq_true, if_false, h6]
  by_cases h1 : rh.headersLen < 16
  · rw [if_pos h1]; rfl
  rw [if_neg h1]
  by_cases h2 : rh.headersLen > rh.bufferLen
  · rw [if_pos h2]; rfl
  rw [if_neg h2]
  rcases resp with _ | resp
  · rfl
  dsimp only
  rcases hq : resp.pBuffer with _ | b
  · rfl
  simp only [Option.isNone_some, Bool.false_eq_true, if_false]
  by_cases h3 : resp.bufferLen = 0
  · rw [if_pos h3]; rfl
  rw [if_neg h3]
  by_cases h4 : body.isNone = true ∧ n > 0
  · rw [if_pos h4]; rfl
  rw [if_neg h4]
  by_cases h5 : n > 2147483647
  · rw [if_pos h5]; rfl
  exfalso
  refine h ⟨⟨T, snd, rcv, rfl, hs, hr⟩, ⟨rh, rb, rfl, hb, by omega, by omega⟩, ⟨resp, b, rfl, hq, h3⟩, ?_, by omega⟩
  rintro rfl
  simp at h4; exact h4

/-- The statuses documented for HTTPClient_Send (core_http_client.h:878-894), HTTPInvalidParameter aside. -/
def documented : List Status := [.success, .networkError, .partialResponse, .noResponse, .insufficientMemory, .parserInternalError,
  .extraneousResponseData, .invalidChunkHeader, .invalidProtocolVersion, .invalidStatusCode, .invalidCharacter, .invalidContentLength]

theorem receive_documented {w : World PLog σ} (hp : RecvPre strict P cfg T recv resp rh b rb w.mem) {fuel : Nat} {st : Status} {resp' : Resp σ}
    (h : (HTTPClient_ReceiveAndParseHttpResponse P cfg fuel (some T) (some resp) (some rh) w).1 = .ok (st, resp')) : st ∈ documented := by
  obtain ⟨r, w', t0, tr, e, hl, hev, hfr, hh⟩ := receive_spec hp fuel
  rw [e] at h
  dsimp only at h
  subst h
  rcases hh with ⟨h, _⟩ | ⟨lst, total, h, st, resp', hr, h1, h2, h3⟩
  · cases h
  simp only [Run.ok.injEq, Prod.mk.injEq] at hr
  obtain ⟨rfl, rfl⟩ := hr
  rcases h3 with ⟨_, h3, _⟩ | ⟨_, _, h3⟩ | ⟨h4, _, _, h3⟩
  · rw [h3]; simp [documented]
  · rcases finalStatus_cases h.ctx.state (decide (total = h.resp.bufferLen))
      (decide (h.resp.respOptionFlags &&& DO_NOT_PARSE_BODY_FLAG ≠ 0)) with h6 | h6 | h6 | h6 <;> rw [h3, h6] <;> simp [documented]
  · rw [h3]
    rcases h1.ends _ rfl with ⟨h5, _⟩ | ⟨pre, er, ep, _, h5⟩
    · rw [h5]; simp [documented]
    · rw [h5] at h4 ⊢
      cases er <;> simp [processLlhttpError, documented] at h4 ⊢

/-- **C28.** A call with valid parameters (see C27 for the others) returns only documented statuses; the parser's being paused is never
reported. With C27_invalid: HTTPInvalidParameter is returned exactly for invalid parameters. -/
theorem C28_documented {w : World PLog σ} (hp : CallPre strict P cfg T send recv rh rb body n resp b w.mem) {fuel : Nat} {st : Status}
    {orh : Option ReqHeaders} {oresp : Option (Resp σ)}
    (h : (HTTPClient_Send P cfg fuel (some T) (some rh) body n (some resp) flags w).1 = .ok (st, orh, oresp)) : st ∈ documented := by
  rcases send_spec (flags := flags) hp fuel with ⟨_, h1⟩ | ⟨_, s1, m1, rh', evs, hfr, hb, hbl, hB, hr, ⟨r, h2, h1, hph⟩ | ⟨h1, hph⟩⟩
  · rw [h1] at h; simp at h; rw [← h.1]; simp [documented]
  · rw [h1] at h
    rcases h2 with rfl | rfl
    · simp at h; rw [← h.1]; simp [documented]
    · cases h
  · rw [h1] at h
    have := fun st resp' => receive_documented (w := ⟨s1, m1, w.log ++ evs⟩) (fuel := fuel) (st := st) (resp' := resp') hr
    simp only [M.bind_apply] at h
    generalize HTTPClient_ReceiveAndParseHttpResponse P cfg fuel (some T) (some (withClock resp)) (some rh') ⟨s1, m1, w.log ++ evs⟩ = z at h this
    obtain ⟨r, w'⟩ := z
    cases r with
    | ok a => simp at h; rw [← h.1]; exact this _ _ rfl
    | fault f => cases h
    | more => cases h

/-- **C27, valid parameters.** HTTPInvalidParameter is returned exactly when the parameters are invalid. -/
theorem C27_exact {w : World PLog σ} (hp : CallPre strict P cfg T send recv rh rb body n resp b w.mem) (fuel : Nat) :
    ParamsOk (some T) (some rh) body n (some resp) ∧
    ∀ orh oresp, (HTTPClient_Send P cfg fuel (some T) (some rh) body n (some resp) flags w).1 ≠ .ok (.invalidParameter, orh, oresp) := by
  refine ⟨⟨⟨T, send, recv, rfl, hp.hasSend, hp.hasRecv⟩, ⟨rh, rb, rfl, hp.reqBuf, hp.reqLen, hp.reqLe⟩, ⟨resp, b, rfl, hp.buf, ?_⟩, hp.bodyNone,
    hp.bodyMax⟩, ?_⟩
  · have := hp.pos; omega
  · intro orh oresp h
    have := C28_documented hp h
    simp [documented] at this

/-- **Composition.** Once the request was sent (everything accepted by the transport), HTTPClient_Send is HTTPClient_ReceiveAndParseHttpResponse on
the memory at that moment, and the conditions under which C29–C59 hold are met: they hold of HTTPClient_Send. If it was not, the result is
HTTPInsufficientMemory (nothing sent), HTTPNetworkError, or the call is still running. -/
theorem send_composition {w : World PLog σ} (hp : CallPre strict P cfg T send recv rh rb body n resp b w.mem) (fuel : Nat) :
    (∃ w1 rh' evs, w1.log = w.log ++ evs ∧ accepted evs = wireRequest w.mem rh body n flags ∧ recvs evs = [] ∧
      FrameBuf w.mem w1.mem rb rh.bufferLen ∧ headerBlock w1.mem rh' = wireHeaders (headerBlock w.mem rh) n flags.toNat ∧
      RecvPre strict P cfg T recv (withClock resp) rh' b rb w1.mem ∧
      HTTPClient_Send P cfg fuel (some T) (some rh) body n (some resp) flags w =
        (HTTPClient_ReceiveAndParseHttpResponse P cfg fuel (some T) (some (withClock resp)) (some rh') >>= fun x =>
              pure (x.1, some rh', some x.2)) w1) ∨
    (∃ r w1 evs, HTTPClient_Send P cfg fuel (some T) (some rh) body n (some resp) flags w = (r, w1) ∧ w1.log = w.log ++ evs ∧ recvs evs = [] ∧
      (r = .more ∨ ∃ st orh, r = .ok (st, orh, some (withClock resp)) ∧
        (st = .networkError ∨ (st = .insufficientMemory ∧ evs = [] ∧ w1 = w ∧ orh = some rh ∧
          rh.bufferLen < (wireHeaders (headerBlock w.mem rh) n flags.toNat).length)))) := by
  rcases send_spec (flags := flags) hp fuel with ⟨h0, h1⟩ | ⟨_, s1, m1, rh', evs, hfr, hb, hbl, hB, hr, ⟨r, h2, h1, hph⟩ | ⟨h1, hph⟩⟩
  · exact .inr ⟨_, _, [], h1, by simp, rfl, .inr ⟨_, _, rfl, .inr ⟨rfl, rfl, rfl, rfl, h0⟩⟩⟩
  · refine .inr ⟨_, _, evs, h1, rfl, (sending_kinds hph.kinds).1, ?_⟩
    rcases h2 with rfl | rfl
    · exact .inr ⟨_, _, rfl, .inl rfl⟩
    · exact .inl rfl
  · exact .inl ⟨⟨s1, m1, w.log ++ evs⟩, rh', evs, rfl, hph.all_ rfl, (sending_kinds hph.kinds).1, hfr, hB, hr, h1⟩

/-- **C60.** A whole exchange: no assertion fails, no memory is accessed outside the buffers, and only the first bufferLen bytes of the request
buffer and of the response buffer can change. -/
theorem C60_safe {w : World PLog σ} (hp : CallPre strict P cfg T send recv rh rb body n resp b w.mem) (fuel : Nat) :
    ∃ r w', HTTPClient_Send P cfg fuel (some T) (some rh) body n (some resp) flags w = (r, w') ∧ (∀ f, r ≠ .fault f) ∧
      (∀ i, i ≠ rb → i ≠ b → w'.mem i = w.mem i) ∧
      (∀ i, (w'.mem i).length = (w.mem i).length) ∧
      (∀ i k, (i = rb → rh.bufferLen ≤ k) → (i = b → resp.bufferLen ≤ k) → (w'.mem i)[k]? = (w.mem i)[k]?) := by
  have key : ∀ {m m' : Mem} {c l : Nat}, FrameBuf m m' c l → ∀ i k, (i = c → l ≤ k) → (m' i)[k]? = (m i)[k]? := by
    intro m m' c l hf i k hk
    by_cases h : i = c
    · subst h
      have h1 := hk rfl
      have h2 := congrArg (fun x : Bytes => x[k - l]?) hf.2.2
      simp only [List.getElem?_drop] at h2
      rwa [show l + (k - l) = k by omega] at h2
    · rw [hf.1 i h]
  have keyl : ∀ {m m' : Mem} {c l : Nat}, FrameBuf m m' c l → ∀ i, (m' i).length = (m i).length := by
    intro m m' c l hf i
    by_cases h : i = c
    · subst h; exact hf.2.1
    · rw [hf.1 i h]
  rcases send_spec (flags := flags) hp fuel with ⟨h0, h1⟩ | ⟨_, s1, m1, rh', evs, hfr, hb, hbl, hB, hr, ⟨r, h2, h1, hph⟩ | ⟨h1, hph⟩⟩
  · exact ⟨_, _, h1, by simp, fun _ _ _ => rfl, fun _ => rfl, fun _ _ _ _ => rfl⟩
  · refine ⟨_, _, h1, ?_, fun i h3 _ => hfr.1 i h3, keyl hfr, fun i k h3 _ => key hfr i k h3⟩
    rcases h2 with rfl | rfl <;> simp
  · obtain ⟨r, w', evs', e, hl, hns, hnf, hfr2⟩ := receive_no_send (w := ⟨s1, m1, w.log ++ evs⟩) hr fuel
    rw [h1]
    simp only [M.bind_apply, e]
    refine ⟨(match r with | .ok a => .ok (a.1, some rh', some a.2) | .fault f => .fault f | .more => .more), w', ?_, ?_, ?_, ?_, ?_⟩
    · cases r <;> rfl
    · intro f
      cases r with
      | fault g => exact absurd rfl (hnf g)
      | _ => simp
    · intro i h3 h4
      rw [hfr2.1 i h4]; exact hfr.1 i h3
    · intro i; rw [keyl hfr2]; exact keyl hfr i
    · intro i k h3 h4
      rw [key hfr2 i k h4]; exact key hfr i k h3

/-- **C61.** With a user clock, if every fruitless send or receive takes at least 1 ms and not too long (less than 2^32 − timeout ms),
HTTPClient_Send returns: none of its three loops (headers, body, response) makes more than `fuel` transport calls. -/
theorem C61_terminates {w : World PLog σ} (hp : CallPre strict P cfg T send recv rh rb body n resp b w.mem) {f : σ → UInt32 × σ} {now : σ → Nat}
    (hc : resp.getTime = .user f) (hck : ClockOk now f) (hst : SendTakesTime now f send (4294967296 - cfg.sendTimeoutMs.toNat))
    (hrt : RecvTakesTime now f recv (4294967296 - cfg.recvTimeoutMs.toNat)) {fuel : Nat}
    (hf1 : rh.bufferLen * (cfg.sendTimeoutMs.toNat + 1) + cfg.sendTimeoutMs.toNat + 1 ≤ fuel)
    (hf2 : n * (cfg.sendTimeoutMs.toNat + 1) + cfg.sendTimeoutMs.toNat + 1 ≤ fuel)
    (hf3 : resp.bufferLen * (cfg.recvTimeoutMs.toNat + 2) + cfg.recvTimeoutMs.toNat + 2 ≤ fuel) :
    (HTTPClient_Send P cfg fuel (some T) (some rh) body n (some resp) flags w).1 ≠ .more := by
  have hc' : (withClock resp).getTime = .user f := by unfold withClock; rw [hc]
  have hsr : (sendHttpRequest cfg fuel (some T) (withClock resp).getTime (some rh) body n flags w).1 ≠ .more := by
    refine sendRequest_noMore (withClock_ne resp) hp ?_
    intro bk len w1 hl hm
    rw [hc']
    refine C25_terminates hp.hasSend hp.sendOk hck hst hl ?_
    rcases Nat.le_total rh.bufferLen n with h | h
    · rw [Nat.max_eq_right h] at hm
      have := Nat.mul_le_mul_right (cfg.sendTimeoutMs.toNat + 1) hm; omega
    · rw [Nat.max_eq_left h] at hm
      have := Nat.mul_le_mul_right (cfg.sendTimeoutMs.toNat + 1) hm; omega
  rw [send_eq hp fuel]
  simp only [M.bind_apply]
  rcases sendRequest_spec (flags := flags) (withClock_ne resp) hp fuel with ⟨h1, h2⟩ | ⟨h1, r, s', m', rh', evs, e, hfr, hb, hbl, hle, hB, hlen, h2⟩
  · rw [h2]; simp
  rw [e] at hsr ⊢
  rcases h2 with ⟨rfl, h2⟩ | ⟨rfl | rfl, h2⟩
  · simp only [if_true, M.bind_apply]
    have := C34_terminates (w := ⟨s', m', w.log ++ evs⟩) (recvPre_of hp hfr hb hbl hle hB hlen) hc' hck hrt (fuel := fuel) hf3
    generalize HTTPClient_ReceiveAndParseHttpResponse P cfg fuel (some T) (some (withClock resp)) (some rh') ⟨s', m', w.log ++ evs⟩ = z at this
    obtain ⟨r, w'⟩ := z
    cases r <;> simp at this ⊢
  · simp
  · simp at hsr

/-- **C61 without a clock function**: every loop makes at most as many transport calls as there are bytes (plus one for receiving). -/
theorem C61_terminates_noclock {w : World PLog σ} (hp : CallPre strict P cfg T send recv rh rb body n resp b w.mem)
    (hc : resp.getTime = .null ∨ resp.getTime = .zero) {fuel : Nat}
    (hf1 : rh.bufferLen ≤ fuel) (hf2 : n ≤ fuel) (hf3 : resp.bufferLen + 1 ≤ fuel) :
    (HTTPClient_Send P cfg fuel (some T) (some rh) body n (some resp) flags w).1 ≠ .more := by
  have hc' : (withClock resp).getTime = .zero := by unfold withClock; rcases hc with hc | hc <;> rw [hc]
  have hsr : (sendHttpRequest cfg fuel (some T) (withClock resp).getTime (some rh) body n flags w).1 ≠ .more := by
    refine sendRequest_noMore (withClock_ne resp) hp ?_
    intro bk len w1 hl hm
    rw [hc']
    exact C25_terminates_noclock hp.hasSend hp.sendOk hl (by omega)
  rw [send_eq hp fuel]
  simp only [M.bind_apply]
  rcases sendRequest_spec (flags := flags) (withClock_ne resp) hp fuel with ⟨h1, h2⟩ | ⟨h1, r, s', m', rh', evs, e, hfr, hb, hbl, hle, hB, hlen, h2⟩
  · rw [h2]; simp
  rw [e] at hsr ⊢
  rcases h2 with ⟨rfl, h2⟩ | ⟨rfl | rfl, h2⟩
  · simp only [if_true, M.bind_apply]
    have := C34_terminates_noclock (w := ⟨s', m', w.log ++ evs⟩) (recvPre_of hp hfr hb hbl hle hB hlen) hc' (fuel := fuel) hf3
    generalize HTTPClient_ReceiveAndParseHttpResponse P cfg fuel (some T) (some (withClock resp)) (some rh') ⟨s', m', w.log ++ evs⟩ = z at this
    obtain ⟨r, w'⟩ := z
    cases r <;> simp at this ⊢
  · simp
  · simp at hsr

/-! ### Non-vacuity -/

/-- The network: as `Script`, for both directions; a send accepts at most 7 bytes, and nothing every third millisecond. -/
def xSend : Script → Bytes → Int × Script := fun s d => (if s.1 % 3 = 0 then 0 else ((min 7 d.length : Nat) : Int), (s.1 + 1, s.2))

theorem xSend_ok : SendOk xSend := by
  intro s d
  simp only [xSend]; split
  · exact Int.natCast_nonneg _
  · exact Int.ofNat_le.mpr (Nat.min_le_right _ _)

/-- The transport. -/
def xT : Transport Script := ⟨some xSend, some scriptRecv⟩
/-- Request headers in 60 bytes of block `0`. -/
def xReq : ReqHeaders := ⟨some 0, 60, 18⟩
/-- Memory: request in block 0 (200 bytes), response in block 1, body in block 2. -/
def xMem : Mem := fun i => if i = 0 then ascii "PUT / HTTP/1.1\r\n\r\n" ++ List.replicate 182 0 else if i = 1 then List.replicate 200 0 else ascii "hello"

theorem xCallPre (q : Nat) (hq : q = 0 ∨ q = 1) : CallPre true Ref.httpParser exCfg xT xSend scriptRecv xReq 0 (some 2) 5
    { exResp 200 0 with pBuffer := some q } q xMem where
  parser := Ref.httpParser_ok
  hasSend := rfl
  sendOk := xSend_ok
  hasRecv := rfl
  recvOk := scriptRecv_ok
  reqBuf := rfl
  reqRoom := by decide +kernel
  reqLen := by decide
  reqLe := by decide
  reqSize := by decide
  buf := rfl
  pos := show 0 < 200 by decide
  room := by rcases hq with rfl | rfl <;> decide +kernel
  size := show 200 < 2 ^ exCfg.sizeBits by decide
  callback := by simp [exResp, exCb]
  bodyNone := by simp
  bodyRoom := by
    intro bb h
    simp only [Option.some.injEq] at h
    subst h
    exact ⟨by decide, by decide⟩
  bodyMax := by decide

/-- The other hypotheses of C61 hold. -/
example : ClockOk (fun s : Script => s.1) scriptClock ∧
    SendTakesTime (fun s : Script => s.1) scriptClock xSend (4294967296 - exCfg.sendTimeoutMs.toNat) ∧
    RecvTakesTime (fun s : Script => s.1) scriptClock scriptRecv (4294967296 - exCfg.recvTimeoutMs.toNat) := by
  refine ⟨scriptClock_ok, ?_, scriptRecv_time⟩
  have : 4294967296 - exCfg.sendTimeoutMs.toNat = 4294967286 := by decide
  rw [this]
  rintro ⟨t, s⟩ d _
  simp [xSend, scriptClock]

/-- A whole exchange: request with body, chunked response; the response buffer is the request's (q = 0) or another (q = 1). -/
def xRun (q : Nat) : Run (Status × Option ReqHeaders × Option (Resp Script)) × World PLog Script :=
  HTTPClient_Send Ref.httpParser exCfg 50 (some xT) (some xReq) (some 2) 5 (some { exResp 200 0 with pBuffer := some q }) 0
    ⟨(4294967280, exChunked), xMem, []⟩

/-- Status, bytes on the wire, and what is reported. -/
structure XSeen where
  wire : Bytes
  st : Status
  statusCode : Nat
  headers : List (Bytes × Bytes × Nat)
  body : Bytes
deriving DecidableEq
/-- Of a run. -/
def xSeen (x : Run (Status × Option ReqHeaders × Option (Resp Script)) × World PLog Script) : Option XSeen :=
  match x.1 with
  | .ok (st, _, some r) => some ⟨accepted x.2.log, st, r.statusCode, reported x.2.log, bodyBytes x.2.mem r⟩
  | _ => none

example : xSeen (xRun 1) = some ⟨ascii "PUT / HTTP/1.1\r\nContent-Length: 5\r\n\r\nhello", .success, 200,
    [(ascii "Server", ascii "x", 200), (ascii "Transfer-Encoding", ascii "chunked", 200)], ascii "abcde"⟩ := by decide +kernel
example : xSeen (xRun 0) = xSeen (xRun 1) := by decide +kernel

/-- C27: each documented condition can be violated, for instance by a NULL receive function, a request line that is too short, or a body that is too long. -/
example : ¬ ParamsOk (some (⟨some xSend, none⟩ : Transport Script)) (some xReq) (some 2) 5 (some (exResp 200 0)) ∧
    ¬ ParamsOk (some xT) (some ⟨some 0, 60, 15⟩) (some 2) 5 (some (exResp 200 0)) ∧
    ¬ ParamsOk (some xT) (some xReq) (some 2) 2147483648 (some (exResp 200 0)) ∧
    ¬ ParamsOk (some xT) (some xReq) none 5 (some (exResp 200 0)) := by
  refine ⟨fun h => ?_, fun h => ?_, fun h => ?_, fun h => ?_⟩
  · obtain ⟨t, s, r, h1, h2, h3⟩ := h.transport
    cases h1; cases h3
  · obtain ⟨x, b, h1, h2, h3, h4⟩ := h.request
    cases h1; simp at h3
  · have := h.bodyLen; omega
  · have := h.body rfl; omega

end CoreHttp.Props

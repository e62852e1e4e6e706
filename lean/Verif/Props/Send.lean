import Verif.Lemmas.SendHeaders
import Verif.Props.Request

/-!
# Properties C17–C25: sending

`HTTPClient_SendHttpData cfg fuel ...` is the call observed for at most `fuel` transport calls; `.more` means it is still running. The
theorems hold for every fuel, hence at every moment of every run. The environment state type `σ`, the transport and the clock are arbitrary.
-/

namespace CoreHttp.Props
open CoreHttp Spec
variable {π σ : Type}

/-! ## C21–C25: HTTPClient_SendHttpData -/

/-- **C21.** At every moment the bytes accepted by the transport are a prefix of the data, and HTTPSuccess is returned exactly when they are
all of it. The buffer is not changed, and no fault (assertion, bad access) occurs. -/
theorem C21_sent_prefix {cfg : Cfg} {T : Transport σ} {send : σ → Bytes → Int × σ} (hT : T.send = some send) (hs : SendOk send)
    {clock : TimeFn σ} (hc : clock ≠ .null) {b len : Nat} {w : World π σ} (hlen : len ≤ (w.mem b).length) (fuel : Nat) :
    ∃ r s' evs, HTTPClient_SendHttpData cfg fuel (some T) clock (some b) len w = (r, ⟨s', w.mem, w.log ++ evs⟩) ∧
      accepted evs <+: (w.mem b).take len ∧
      (r = .ok .success ↔ accepted evs = (w.mem b).take len) ∧
      (r = .ok .success ∨ r = .ok .networkError ∨ r = .more) := by
  obtain ⟨r, s', t0, evs, e, tr⟩ := sendData_trace (cfg := cfg) (fuel := fuel) hT hs hc hlen
  exact ⟨r, s', _, e, tr.accepted_prefix.1, tr.accepted_prefix.2, tr.outcome⟩

/-- **C22.** Every call of the transport send function is offered exactly the bytes not accepted before it, and never an empty buffer. -/
theorem C22_offered_exactly {cfg : Cfg} {T : Transport σ} {send : σ → Bytes → Int × σ} (hT : T.send = some send) (hs : SendOk send)
    {clock : TimeFn σ} (hc : clock ≠ .null) {b len : Nat} {w : World π σ} (hlen : len ≤ (w.mem b).length) (fuel : Nat) :
    ∃ r s' evs, HTTPClient_SendHttpData cfg fuel (some T) clock (some b) len w = (r, ⟨s', w.mem, w.log ++ evs⟩) ∧
      ∀ pre d ret post, evs = pre ++ .send d ret :: post → accepted pre ++ d = (w.mem b).take len ∧ d ≠ [] := by
  obtain ⟨r, s', t0, evs, e, tr⟩ := sendData_trace (cfg := cfg) (fuel := fuel) hT hs hc hlen
  refine ⟨r, s', _, e, ?_⟩
  intro pre d ret post h
  cases pre with
  | nil => simp at h
  | cons x xs =>
    simp at h
    obtain ⟨rfl, h⟩ := h
    have := tr.offered _ _ _ _ h
    exact ⟨by simpa [accepted] using this.1, this.2.1⟩

/-- **C23.** A negative result ends the call with HTTPNetworkError and is the last event; conversely HTTPNetworkError is returned only after
a negative result, or after a zero result followed by a clock reading at least the retry timeout after the last progress. -/
theorem C23_errors_reported {cfg : Cfg} {T : Transport σ} {send : σ → Bytes → Int × σ} (hT : T.send = some send) (hs : SendOk send)
    {clock : TimeFn σ} (hc : clock ≠ .null) {b len : Nat} {w : World π σ} (hlen : len ≤ (w.mem b).length) (fuel : Nat) :
    ∃ r s' t0 evs, HTTPClient_SendHttpData cfg fuel (some T) clock (some b) len w = (r, ⟨s', w.mem, w.log ++ .time t0 :: evs⟩) ∧
      (∀ pre d ret post, evs = pre ++ .send d ret :: post → ret < 0 → post = [] ∧ r = .ok .networkError) ∧
      (r = .ok .networkError →
        (∃ pre d ret, evs = pre ++ [.send d ret] ∧ ret < 0) ∨
        (∃ pre d t, evs = pre ++ [.send d 0, .time t] ∧
          (clock.isZero = true ∨ cfg.sendTimeoutMs ≤ t - lastProgress t0 pre))) := by
  obtain ⟨r, s', t0, evs, e, tr⟩ := sendData_trace (cfg := cfg) (fuel := fuel) hT hs hc hlen
  refine ⟨r, s', t0, evs, e, tr.negative, fun h => ?_⟩
  rcases tr.failed_why h with h | ⟨pre, d, t, h1, h2⟩
  · exact .inl h
  · refine .inr ⟨pre, d, t, h1, ?_⟩
    unfold retryTimeout at h2
    by_cases hz : clock.isZero = true
    · exact .inl hz
    · rw [if_neg hz] at h2; exact .inr h2

/-- **C24.** After a zero result the clock is read (`t`), and the call gives up there if and only if the time since the last progress is at
least the configured timeout (or there is no user clock). The time difference is the true one for a 32-bit clock that wraps around, as
long as less than 2^32 ms passed. -/
theorem C24_timeout_exact {cfg : Cfg} {T : Transport σ} {send : σ → Bytes → Int × σ} (hT : T.send = some send) (hs : SendOk send)
    {clock : TimeFn σ} (hc : clock ≠ .null) {b len : Nat} {w : World π σ} (hlen : len ≤ (w.mem b).length) (fuel : Nat) :
    ∃ r s' t0 evs, HTTPClient_SendHttpData cfg fuel (some T) clock (some b) len w = (r, ⟨s', w.mem, w.log ++ .time t0 :: evs⟩) ∧
      ∀ pre d post, evs = pre ++ .send d 0 :: post →
        ∃ t post', post = .time t :: post' ∧
          ((r = .ok .networkError ∧ post' = []) ↔
            (clock.isZero = true ∨ cfg.sendTimeoutMs ≤ t - lastProgress t0 pre)) ∧
          (∀ now0 now1 : Nat, lastProgress t0 pre = UInt32.ofNat now0 → t = UInt32.ofNat now1 → now0 ≤ now1 →
            now1 - now0 < 4294967296 → clock.isZero = false →
            ((r = .ok .networkError ∧ post' = []) ↔ cfg.sendTimeoutMs.toNat ≤ now1 - now0)) := by
  obtain ⟨r, s', t0, evs, e, tr⟩ := sendData_trace (cfg := cfg) (fuel := fuel) hT hs hc hlen
  refine ⟨r, s', t0, evs, e, ?_⟩
  intro pre d post h
  obtain ⟨t, post', h1, h2, _⟩ := tr.zero_result _ _ _ h
  have key : ((r = .ok .networkError ∧ post' = []) ↔
            (clock.isZero = true ∨ cfg.sendTimeoutMs ≤ t - lastProgress t0 pre)) := by
    rw [h2]
    unfold retryTimeout
    by_cases hz : clock.isZero = true
    · simp [hz, UInt32.le_iff_toNat_le]
    · simp [hz]
  refine ⟨t, post', h1, key, ?_⟩
  intro now0 now1 e0 e1 hle hlt hz
  rw [key, e0, e1, clock_ge hle hlt]
  simp [hz]

/-- **C25.** If every fruitless attempt takes at least 1 ms and less than 2^32 − timeout ms, sending returns within
len · (timeout + 1) + timeout + 1 transport calls. -/
theorem C25_terminates {cfg : Cfg} {T : Transport σ} {send : σ → Bytes → Int × σ} (hT : T.send = some send) (hs : SendOk send)
    {f : σ → UInt32 × σ} {now : σ → Nat} (hck : ClockOk now f)
    (htime : SendTakesTime now f send (4294967296 - cfg.sendTimeoutMs.toNat))
    {b len : Nat} {w : World π σ} (hlen : len ≤ (w.mem b).length) {fuel : Nat}
    (hfuel : len * (cfg.sendTimeoutMs.toNat + 1) + cfg.sendTimeoutMs.toNat + 1 ≤ fuel) :
    (HTTPClient_SendHttpData cfg fuel (some T) (.user f) (some b) len w).1 ≠ .more := by
  unfold HTTPClient_SendHttpData
  simp only [hT, M.bind_apply, readClock, M.world_apply, M.setEnv_apply, M.emit_apply, M.pure_apply, retryTimeout, TimeFn.isZero,
    Bool.false_eq_true, if_false]
  rw [hck.reading]
  exact sendLoop_terminates hs hck htime b fuel 0 len _ _ (by simpa using hlen) (Nat.le_refl _) (.inl rfl) (by dsimp only; omega)

/-- **C25 without a user clock**: at most len calls. -/
theorem C25_terminates_noclock {cfg : Cfg} {T : Transport σ} {send : σ → Bytes → Int × σ} (hT : T.send = some send) (hs : SendOk send)
    {b len : Nat} {w : World π σ} (hlen : len ≤ (w.mem b).length) {fuel : Nat} (hfuel : len ≤ fuel) :
    (HTTPClient_SendHttpData cfg fuel (some T) .zero (some b) len w).1 ≠ .more := by
  unfold HTTPClient_SendHttpData
  simp only [hT, M.bind_apply, readClock, M.emit_apply, M.pure_apply, retryTimeout, TimeFn.isZero, if_true]
  exact sendLoop_terminates0 hs (by intro h; cases h) b fuel 0 len _ _ (by simpa using hlen) hfuel

/-! ### Non-vacuity: a concrete transport and clock -/

/-- Environment: a millisecond counter. -/
abbrev ExEnv := Nat
/-- A transport that accepts at most 3 bytes per call, and nothing in every odd millisecond; each call takes 1 ms. -/
def exSend : ExEnv → Bytes → Int × ExEnv := fun s d => (if s % 2 = 1 then 0 else ((min 3 d.length : Nat) : Int), s + 1)
/-- A clock showing it modulo 2^32. -/
def exClock : ExEnv → UInt32 × ExEnv := fun s => (UInt32.ofNat s, s)
/-- The transport (its receive function never delivers anything). -/
def exTransport : Transport ExEnv := ⟨some exSend, some (fun s _ => (0, [], s + 1))⟩

theorem exSendOk : SendOk exSend := by
  intro s d
  simp only [exSend]; split
  · exact Int.natCast_nonneg _
  · exact Int.ofNat_le.mpr (Nat.min_le_right _ _)

/-- The hypotheses of C21–C25 hold for this transport and clock, starting just before the clock wraps around. -/
example : exTransport.send = some exSend ∧ SendOk exSend ∧ ClockOk (fun s : ExEnv => s) exClock ∧
    SendTakesTime (fun s : ExEnv => s) exClock exSend (4294967296 - exCfg.sendTimeoutMs.toNat) := by
  refine ⟨rfl, exSendOk, ⟨fun s => rfl, fun s => Nat.le_refl _⟩, ?_⟩
  intro s d _
  have : 4294967296 - exCfg.sendTimeoutMs.toNat = 4294967286 := by decide
  rw [this]
  simp only [exSend, exClock]; omega

/-- Running it: 7 bytes are sent in five calls, across the wrap-around of the clock. -/
example : (HTTPClient_SendHttpData (π := Unit) exCfg 10 (some exTransport) (.user exClock) (some 0) 7
    ⟨4294967294, fun _ => [1, 2, 3, 4, 5, 6, 7, 8], []⟩).1 = .ok .success ∧
  sends (HTTPClient_SendHttpData (π := Unit) exCfg 10 (some exTransport) (.user exClock) (some 0) 7
    ⟨4294967294, fun _ => [1, 2, 3, 4, 5, 6, 7, 8], []⟩).2.log =
    [([1, 2, 3, 4, 5, 6, 7], 3), ([4, 5, 6, 7], 0), ([4, 5, 6, 7], 3), ([7], 0), ([7], 1)] := by
  constructor <;> decide +kernel

/-! ## C17–C20: HTTPClient_SendHttpHeaders -/

/-- **C17.** With a body length up to INT32_MAX: when the headers (with the Content-Length line, if one is to be added) fit in the buffer,
the bytes accepted by the transport are at every moment a prefix of exactly `wireHeaders`, HTTPSuccess is returned exactly when they are all of it, and
the request object then holds that block. -/
theorem C17_content_length {cfg : Cfg} {T : Transport σ} {send : σ → Bytes → Int × σ} {clock : TimeFn σ} {h : ReqHeaders}
    {b n : Nat} {flags : UInt32} {w : World π σ} (pre : SendPre cfg T send clock w.mem h b) (hmax : n ≤ 2147483647)
    (hfit : (wireHeaders (headerBlock w.mem h) n flags.toNat).length ≤ h.bufferLen) (fuel : Nat) :
    ∃ r w' evs, HTTPClient_SendHttpHeaders cfg fuel (some T) clock (some h) n flags w = (r, w') ∧ w'.log = w.log ++ evs ∧
      accepted evs <+: wireHeaders (headerBlock w.mem h) n flags.toNat ∧
      (∀ oh, r = .ok (.success, oh) → accepted evs = wireHeaders (headerBlock w.mem h) n flags.toNat) ∧
      (∀ st oh, r = .ok (st, oh) → (st = .success ∨ st = .networkError) ∧
        ∃ h', oh = some h' ∧ h'.pBuffer = h.pBuffer ∧ h'.bufferLen = h.bufferLen ∧
          headerBlock w'.mem h' = wireHeaders (headerBlock w.mem h) n flags.toNat ∧ h'.headersLen = (headerBlock w'.mem h').length) ∧
      FrameBuf w.mem w'.mem b h.bufferLen := by
  obtain ⟨h', m', hb, hbl, hle, hfr, hB, hlen, _, e⟩ := sendHeaders_fit (fuel := fuel) pre hmax hfit
  have hml : h'.headersLen ≤ (m' b).length := by rw [hfr.2.1]; have := pre.buf.2; omega
  obtain ⟨r, s', t0, evs, e2, tr⟩ := sendData_trace (cfg := cfg) (fuel := fuel) (w := ⟨w.env, m', w.log⟩) pre.transport pre.sendOk
    pre.clockOk hml
  have hblk : (m' b).take h'.headersLen = wireHeaders (headerBlock w.mem h) n flags.toNat := by
    rw [← hB]; simp [headerBlock, hb]
  rw [e]
  dsimp only at e2 tr
  rw [hblk] at tr
  simp only [M.bind_apply, e2]
  rcases tr.outcome with rfl | rfl | rfl
  · refine ⟨_, _, _, rfl, rfl, tr.accepted_prefix.1, fun _ _ => tr.accepted_prefix.2.mp rfl, ?_, hfr⟩
    intro st oh h0
    simp at h0; obtain ⟨rfl, rfl⟩ := h0
    exact ⟨.inl rfl, h', rfl, hb.trans pre.buf.1.symm, hbl, hB, hlen⟩
  · refine ⟨_, _, _, rfl, rfl, tr.accepted_prefix.1, fun _ h0 => by simp at h0, ?_, hfr⟩
    intro st oh h0
    simp at h0; obtain ⟨rfl, rfl⟩ := h0
    exact ⟨.inr rfl, h', rfl, hb.trans pre.buf.1.symm, hbl, hB, hlen⟩
  · exact ⟨_, _, _, rfl, rfl, tr.accepted_prefix.1, fun _ h0 => (by cases h0), (fun st oh h0 => by cases h0), hfr⟩

/-- **C18 (HTTPClient_SendHttpHeaders).** If the block does not fit, HTTPInsufficientMemory is returned and nothing whatsoever happens: the
world (buffers, environment, trace) and the request object are unchanged. -/
theorem C18_nothing_sent {cfg : Cfg} {T : Transport σ} {send : σ → Bytes → Int × σ} {clock : TimeFn σ} {h : ReqHeaders}
    {b n : Nat} {flags : UInt32} {w : World π σ} (pre : SendPre cfg T send clock w.mem h b) (hmax : n ≤ 2147483647)
    (hnofit : h.bufferLen < (wireHeaders (headerBlock w.mem h) n flags.toNat).length) (fuel : Nat) :
    HTTPClient_SendHttpHeaders cfg fuel (some T) clock (some h) n flags w = (.ok (.insufficientMemory, some h), w) :=
  sendHeaders_nofit pre hmax hnofit

/-- A request object in 64 bytes holding "GET / HTTP/1.1\r\n\r\n". -/
def exHdrS : ReqHeaders := ⟨some 0, 64, 18⟩
/-- Its memory; block 1 is a request body. -/
def exMemS : Mem := fun i => if i = 0 then ascii "GET / HTTP/1.1\r\n\r\n" ++ List.replicate 46 0 else ascii "hello"

theorem exPreS (m : ExEnv) : SendPre exCfg exTransport exSend (.user exClock)
    (⟨m, exMemS, []⟩ : World Unit ExEnv).mem exHdrS 0 :=
  ⟨rfl, exSendOk, (by intro h; cases h), ⟨rfl, (by decide : exHdrS.bufferLen ≤ (exMemS 0).length)⟩, by decide, by decide⟩

/-- The hypotheses of C17 hold for a 5-byte body. -/
example : wireHeaders (headerBlock exMemS exHdrS) 5 0 = ascii "GET / HTTP/1.1\r\nContent-Length: 5\r\n\r\n" := by decide
example : (wireHeaders (headerBlock exMemS exHdrS) 5 (0 : UInt32).toNat).length ≤ exHdrS.bufferLen := by decide
/-- The hypothesis of C18 holds in a buffer of 30 bytes. -/
example : (⟨some 0, 30, 18⟩ : ReqHeaders).bufferLen < (wireHeaders (headerBlock exMemS ⟨some 0, 30, 18⟩) 5 (0 : UInt32).toNat).length := by
  decide

/-! ## C19 -/

/-- **C19 is false of the code, first way.** With a declared body length whose low 32 bits are 2^31 the conversion to text overflows a signed integer. -/
theorem C19_refuted_overflow {cfg : Cfg} {T : Transport σ} {send : σ → Bytes → Int × σ} (hT : T.send = some send) {clock : TimeFn σ}
    {h : ReqHeaders} {w : World π σ} (fuel n : Nat) (h1 : n % 4294967296 = 2147483648) :
    (HTTPClient_SendHttpHeaders cfg fuel (some T) clock (some h) n 0 w).1 = .fault .intOverflow := by
  have hpos : 0 < n := by omega
  unfold HTTPClient_SendHttpHeaders
  simp only [hT, M.bind_apply, M.world_apply]
  rw [if_pos ⟨by decide, hpos⟩]
  have : addContentLengthHeader cfg w.mem h n = .fault .intOverflow := by
    unfold addContentLengthHeader convertInt32ToAscii
    have e1 : toInt32 n = INT32_MIN := by
      unfold toInt32; rw [h1]; decide
    rw [e1, decide_eq_true hpos]
    rfl
  simp [this]

/-- **C19 is false of the code, second way.** Every declared body length whose low 32 bits are between 2^31 + 1 and
4294967296 − 10^9 makes the text overrun its 10-byte array. -/
theorem C19_refuted_overrun {cfg : Cfg} {T : Transport σ} {send : σ → Bytes → Int × σ} (hT : T.send = some send) {clock : TimeFn σ}
    {h : ReqHeaders} {w : World π σ} (fuel n : Nat) (h1 : 2147483649 ≤ n % 4294967296) (h2 : n % 4294967296 ≤ 3294967296) :
    (HTTPClient_SendHttpHeaders cfg fuel (some T) clock (some h) n 0 w).1 = .fault .oob := by
  have hpos : 0 < n := by omega
  unfold HTTPClient_SendHttpHeaders
  simp only [hT, M.bind_apply, M.world_apply]
  rw [if_pos ⟨by decide, hpos⟩]
  have : addContentLengthHeader cfg w.mem h n = .fault .oob := by
    unfold addContentLengthHeader
    rw [decide_eq_true hpos]
    have e1 : toInt32 n = ((n % 4294967296 : Nat) : Int) - 4294967296 := by
      unfold toInt32; rw [if_neg (by omega)]
    have hM : MAX_INT32_NO_OF_DECIMAL_DIGITS = 10 := rfl
    have hneg : toInt32 n < 0 := by omega
    have hmin : toInt32 n ≠ INT32_MIN := by simp only [INT32_MIN]; omega
    simp only [cAssert_true, Run.ok_bind]
    rw [hM, convert_eq _ _ _ _ (by omega) hmin]
    have hlen : (intText (toInt32 n)).length = 11 := by
      have hge : 1000000000 ≤ (toInt32 n).natAbs := by omega
      have hlt : (toInt32 n).natAbs < 10000000000 := by omega
      rw [intText_neg hneg]
      simp only [List.length_cons]
      have l1 := decimal_length_le (k := 9) (a := (toInt32 n).natAbs) (by simpa using hlt)
      have l2 := decimal_length_ge (k := 9) (a := (toInt32 n).natAbs) (by simpa using hge)
      omega
    have : memWrite (List.replicate 10 (0 : UInt8)) 0 (intText (toInt32 n)) = .fault .oob := by
      unfold memWrite; rw [if_neg (by rw [hlen]; simp)]
    rw [this]; rfl
  simp [this]

/-- **C19 is false of the code, third way.** A declared length of 2^32 or more (64-bit size_t) is announced modulo 2^32: the call behaves
exactly as if the length were n mod 2^32 (by C17 it then sends `Content-Length: <n mod 2^32>`). -/
theorem C19_refuted_truncated {cfg : Cfg} {T : Transport σ} {clock : TimeFn σ} {h : ReqHeaders} {w : World π σ} (fuel n : Nat)
    (flags : UInt32) (h1 : 0 < n % 4294967296) (h2 : n % 4294967296 ≤ 2147483647) :
    HTTPClient_SendHttpHeaders cfg fuel (some T) clock (some h) n flags w =
      HTTPClient_SendHttpHeaders cfg fuel (some T) clock (some h) (n % 4294967296) flags w := by
  have hpos : 0 < n := by
    rcases Nat.eq_zero_or_pos n with rfl | h0
    · simp at h1
    · exact h0
  have e : ∀ m, addContentLengthHeader cfg m h n = addContentLengthHeader cfg m h (n % 4294967296) := by
    intro m
    unfold addContentLengthHeader
    have : toInt32 n = toInt32 (n % 4294967296) := by unfold toInt32; rw [Nat.mod_mod]
    rw [decide_eq_true hpos, decide_eq_true h1, this]
  unfold HTTPClient_SendHttpHeaders
  have hc : (flags &&& SEND_DISABLE_CONTENT_LENGTH_FLAG = 0 ∧ n > 0) ↔
      (flags &&& SEND_DISABLE_CONTENT_LENGTH_FLAG = 0 ∧ n % 4294967296 > 0) := by
    constructor
    · rintro ⟨a, _⟩; exact ⟨a, h1⟩
    · rintro ⟨a, _⟩; exact ⟨a, hpos⟩
  rcases hs : T.send with _ | snd
  · simp only [hs]
  · simp only [hs, hc, e]

/-- **C19 is false of the code, fourth way.** A declared length whose low 32 bits are 0 is announced as 0, and one whose low 32 bits are above
4294967296 − 10^9 as a negative number: that is what is on the wire when the call succeeds. (The four ways cover every length above INT32_MAX.) -/
theorem C19_refuted_wrong_text {cfg : Cfg} {T : Transport σ} {send : σ → Bytes → Int × σ} {clock : TimeFn σ} {h : ReqHeaders}
    {b n : Nat} {text : Bytes} {w : World π σ} (pre : SendPre cfg T send clock w.mem h b) (hn : 0 < n)
    (ht : (n % 4294967296 = 0 ∧ text = ascii "0") ∨ (3294967297 ≤ n % 4294967296 ∧ text = ascii "-" ++ decimal (4294967296 - n % 4294967296)))
    (hfit : (stripBlankLine (headerBlock w.mem h) ++ headerLine (ascii "Content-Length") text ++ crlf).length ≤ h.bufferLen) (fuel : Nat) :
    ∃ r w' evs, HTTPClient_SendHttpHeaders cfg fuel (some T) clock (some h) n 0 w = (r, w') ∧ w'.log = w.log ++ evs ∧ r.Safe ∧
      (∀ oh, r = .ok (.success, oh) → accepted evs = stripBlankLine (headerBlock w.mem h) ++ headerLine (ascii "Content-Length") text ++ crlf) := by
  have hmod := Nat.mod_lt n (show 0 < 4294967296 by decide)
  have htext : text = intText (toInt32 n) ∧ text.length ≤ 10 ∧ toInt32 n ≠ INT32_MIN ∧ CleanValue text ∧ text ≠ [] := by
    rcases ht with ⟨h1, rfl⟩ | ⟨h1, rfl⟩
    · have e1 : toInt32 n = 0 := by unfold toInt32; rw [h1]; decide
      rw [e1]
      exact ⟨by decide +kernel, by decide, by decide, by decide, by decide⟩
    · have e1 : toInt32 n = ((n % 4294967296 : Nat) : Int) - 4294967296 := by
        unfold toInt32; rw [if_neg (by omega)]
      have hneg : toInt32 n < 0 := by omega
      have habs : (toInt32 n).natAbs = 4294967296 - n % 4294967296 := by omega
      have hl : (decimal (4294967296 - n % 4294967296)).length ≤ 9 :=
        decimal_length_le (k := 8) (by show _ < 1000000000; omega)
      refine ⟨by rw [intText_neg hneg, habs]; rfl, ?_, by simp only [INT32_MIN]; omega, cleanValue_append (by decide) (clean_decimal _), by simp [ascii]⟩
      rw [List.length_append, show (ascii "-").length = 1 from by decide]
      omega
  obtain ⟨e1, hl10, hmin, hclean, hne⟩ := htext
  have e : ∀ m, addContentLengthHeader cfg m h n = addHeader cfg m h (some (ascii "Content-Length")) (some text) := by
    intro m
    unfold addContentLengthHeader
    rw [decide_eq_true hn]
    simp only [cAssert_true, Run.ok_bind]
    have hM : MAX_INT32_NO_OF_DECIMAL_DIGITS = 10 := rfl
    rw [hM, convert_eq _ _ _ _ (by omega) hmin, ← e1, memWrite_ok (by simpa using hl10)]
    simp only [Run.ok_bind]
    rw [scratch_read 10 _ hl10 _ rfl]
    rfl
  have hl14 : (ascii "Content-Length").length = 14 := by decide
  have hk : (stripBlankLine (headerBlock w.mem h)).length ≤ h.headersLen := by
    have h1 := strip_length_le (headerBlock w.mem h)
    have h3 : (headerBlock w.mem h).length ≤ h.headersLen := by
      simp only [headerBlock, pre.buf.1, List.length_take]; omega
    omega
  have hlen : (stripBlankLine (headerBlock w.mem h) ++ headerLine (ascii "Content-Length") text ++ crlf).length
      = (stripBlankLine (headerBlock w.mem h)).length + 14 + text.length + 6 := by
    simp only [headerLine, crlf, List.length_append, hl14, List.length_cons, List.length_nil]; omega
  have hle := pre.le
  have hsz := pre.size
  obtain ⟨st, h', m', ea, hb, hbl, hle', hfr, hins, hins2, hsucc, hinv, _, hB, hcase⟩ := addHeader_block (cfg := cfg) (m := w.mem) (h := h)
    (b := b) (f := ascii "Content-Length") (v := text) pre.buf.1 (by decide) hne pre.le pre.buf.2 (by rw [hl14]; omega)
  have hst : st = .success := hsucc.mpr ⟨by rw [hl14]; omega, by decide, hclean⟩
  obtain ⟨hB1, hB2⟩ := hB hst
  have hml : h'.headersLen ≤ (m' b).length := by rw [hfr.2.1]; have := pre.buf.2; omega
  obtain ⟨r, s', t0, evs, e2, tr⟩ := sendData_trace (cfg := cfg) (fuel := fuel) (w := ⟨w.env, m', w.log⟩) pre.transport pre.sendOk
    pre.clockOk hml
  have hblk : (m' b).take h'.headersLen = stripBlankLine (headerBlock w.mem h) ++ headerLine (ascii "Content-Length") text ++ crlf := by
    rw [← hB1]; simp [headerBlock, hb]
  unfold HTTPClient_SendHttpHeaders
  simp only [pre.transport, M.bind_apply, M.world_apply]
  rw [if_pos ⟨by decide, hn⟩]
  dsimp only at e2 tr
  rw [hblk] at tr
  simp only [M.ofRun_apply, e, ea, hst, M.setMem_apply, if_true, M.bind_apply, hb, e2]
  rcases tr.outcome with rfl | rfl | rfl
  · exact ⟨_, _, _, rfl, rfl, (by intro f h0; cases h0), fun _ _ => tr.accepted_prefix.2.mp rfl⟩
  · exact ⟨_, _, _, rfl, rfl, (by intro f h0; cases h0), fun _ h0 => by simp at h0⟩
  · exact ⟨_, _, _, rfl, rfl, (by intro f h0; cases h0), fun _ h0 => by cases h0⟩

/-- A length of 2^32 − 1 in 64 bytes meets the hypotheses, and `Content-Length: -1` is what is announced. -/
example : (3294967297 ≤ 4294967295 % 4294967296 ∧ ascii "-1" = ascii "-" ++ decimal (4294967296 - 4294967295 % 4294967296)) ∧
    (stripBlankLine (headerBlock exMemS exHdrS) ++ headerLine (ascii "Content-Length") (ascii "-1") ++ crlf).length ≤ exHdrS.bufferLen := by
  decide +kernel

/-- **C19, partial.** For lengths up to INT32_MAX (missing: the longer ones, for which it is false) HTTPClient_SendHttpHeaders has no fault and
announces exactly that length. -/
theorem C19_safe_partial {cfg : Cfg} {T : Transport σ} {send : σ → Bytes → Int × σ} {clock : TimeFn σ} {h : ReqHeaders}
    {b n : Nat} {flags : UInt32} {w : World π σ} (pre : SendPre cfg T send clock w.mem h b) (hmax : n ≤ 2147483647) (fuel : Nat) :
    ∃ r w' evs, HTTPClient_SendHttpHeaders cfg fuel (some T) clock (some h) n flags w = (r, w') ∧ w'.log = w.log ++ evs ∧
      r.Safe ∧ accepted evs <+: wireHeaders (headerBlock w.mem h) n flags.toNat ∧ FrameBuf w.mem w'.mem b h.bufferLen := by
  by_cases hfit : (wireHeaders (headerBlock w.mem h) n flags.toNat).length ≤ h.bufferLen
  · obtain ⟨h', m', hb, hbl, hle, hfr, hB, hlen, _, e⟩ := sendHeaders_fit (fuel := fuel) pre hmax hfit
    have hml : h'.headersLen ≤ (m' b).length := by rw [hfr.2.1]; have := pre.buf.2; omega
    obtain ⟨r, s', t0, evs, e2, tr⟩ := sendData_trace (cfg := cfg) (fuel := fuel) (w := ⟨w.env, m', w.log⟩) pre.transport pre.sendOk
      pre.clockOk hml
    have hblk : (m' b).take h'.headersLen = wireHeaders (headerBlock w.mem h) n flags.toNat := by
      rw [← hB]; simp [headerBlock, hb]
    rw [e]
    dsimp only at e2 tr
    rw [hblk] at tr
    simp only [M.bind_apply, e2]
    rcases tr.outcome with rfl | rfl | rfl <;>
      exact ⟨_, _, _, rfl, rfl, (by intro f h0; cases h0), tr.accepted_prefix.1, hfr⟩
  · rw [sendHeaders_nofit pre hmax (by omega)]
    exact ⟨_, w, [], rfl, by simp, (by intro f h0; cases h0), List.nil_prefix, FrameBuf.refl ..⟩

/-! ## C20 -/

/-- Sending headers with a Content-Length appends a line to the object, so a second send has one more line. -/
theorem wireHeaders_twice (block : Bytes) {n flags : Nat} (ha : addsContentLength n flags = true) :
    wireHeaders (wireHeaders block n flags) n flags =
      stripBlankLine block ++ headerLine (ascii "Content-Length") (decimal n) ++ headerLine (ascii "Content-Length") (decimal n) ++ crlf := by
  unfold wireHeaders
  rw [if_pos ha, if_pos ha]
  congr 2
  have : headerLine (ascii "Content-Length") (decimal n) = (ascii "Content-Length" ++ [58, 32] ++ decimal n) ++ crlf := rfl
  rw [this, ← List.append_assoc]
  exact strip_crlf (List.suffix_append _ _)

/-- **C20 is false of the code.** Sending the same request object with the same non-empty body a second time (first call: world `w` to `w1`
and object `h1`) puts a second Content-Length line on the wire. -/
theorem C20_refuted {cfg : Cfg} {T : Transport σ} {send : σ → Bytes → Int × σ} {clock : TimeFn σ} {h h1 : ReqHeaders}
    {b n fuel : Nat} {flags : UInt32} {w w1 : World π σ} (pre : SendPre cfg T send clock w.mem h b) (hmax : n ≤ 2147483647)
    (ha : addsContentLength n flags.toNat = true)
    (hfit : (wireHeaders (headerBlock w.mem h) n flags.toNat).length ≤ h.bufferLen)
    (hfit2 : (wireHeaders (wireHeaders (headerBlock w.mem h) n flags.toNat) n flags.toNat).length ≤ h.bufferLen)
    (e1 : HTTPClient_SendHttpHeaders cfg fuel (some T) clock (some h) n flags w = (.ok (.success, some h1), w1)) (fuel2 : Nat) :
    ∃ r w2 evs, HTTPClient_SendHttpHeaders cfg fuel2 (some T) clock (some h1) n flags w1 = (r, w2) ∧ w2.log = w1.log ++ evs ∧
      (∀ oh, r = .ok (.success, oh) → accepted evs = stripBlankLine (headerBlock w.mem h) ++
        headerLine (ascii "Content-Length") (decimal n) ++ headerLine (ascii "Content-Length") (decimal n) ++ crlf) := by
  obtain ⟨r, w', evs, e, _, _, _, hst, hfr⟩ := C17_content_length pre hmax hfit fuel
  rw [e1] at e
  simp only [Prod.mk.injEq] at e
  obtain ⟨rfl, rfl⟩ := e
  obtain ⟨_, h', h2, hb, hbl, hB, hlen⟩ := hst _ _ rfl
  obtain rfl : h1 = h' := by simpa using h2
  have pre1 : SendPre cfg T send clock w1.mem h1 b :=
    ⟨pre.transport, pre.sendOk, pre.clockOk, ⟨hb.trans pre.buf.1, by rw [hbl, hfr.2.1]; exact pre.buf.2⟩,
      by rw [hlen, hB, hbl]; exact hfit, by rw [hbl]; exact pre.size⟩
  obtain ⟨r, w', evs, e, hl, _, hs, _⟩ := C17_content_length pre1 hmax (flags := flags) (by rw [hB, hbl]; exact hfit2) fuel2
  refine ⟨r, w', evs, e, hl, fun oh h0 => ?_⟩
  rw [hs oh h0, hB, wireHeaders_twice _ ha]

/-- **C20, partial.** With an empty body or HTTP_SEND_DISABLE_CONTENT_LENGTH_FLAG (missing: a non-empty body with the flag clear), sending leaves
the object and its header block unchanged, so every send puts the same block on the wire. -/
theorem C20_resend_partial {cfg : Cfg} {T : Transport σ} {send : σ → Bytes → Int × σ} {clock : TimeFn σ} {h : ReqHeaders}
    {b n : Nat} {flags : UInt32} {w : World π σ} (pre : SendPre cfg T send clock w.mem h b) (hmax : n ≤ 2147483647)
    (ha : addsContentLength n flags.toNat = false) (fuel : Nat) :
    ∃ r w' evs, HTTPClient_SendHttpHeaders cfg fuel (some T) clock (some h) n flags w = (r, w') ∧ w'.log = w.log ++ evs ∧
      w'.mem = w.mem ∧ (∀ st oh, r = .ok (st, oh) → oh = some h) ∧
      (∀ oh, r = .ok (.success, oh) → accepted evs = headerBlock w.mem h) := by
  have hw : wireHeaders (headerBlock w.mem h) n flags.toNat = headerBlock w.mem h := by simp [wireHeaders, ha]
  have hfit : (wireHeaders (headerBlock w.mem h) n flags.toNat).length ≤ h.bufferLen := by
    rw [hw]; have := pre.le; simp only [headerBlock, pre.buf.1, List.length_take]; omega
  obtain ⟨h', m', hb, hbl, hle, hfr, hB, hlen, hsame, e⟩ := sendHeaders_fit (fuel := fuel) pre hmax hfit
  obtain ⟨rfl, rfl⟩ := hsame ha
  have hml : h'.headersLen ≤ (w.mem b).length := by have := pre.buf.2; omega
  obtain ⟨r, s', t0, evs, e2, tr⟩ := sendData_trace (cfg := cfg) (fuel := fuel) (w := w) pre.transport pre.sendOk
    pre.clockOk hml
  have hblk : (w.mem b).take h'.headersLen = headerBlock w.mem h' := by simp [headerBlock, hb]
  rw [hblk] at tr
  rw [e]
  simp only [M.bind_apply, e2]
  rcases tr.outcome with rfl | rfl | rfl
  · exact ⟨_, _, _, rfl, rfl, rfl, (by rintro st oh h0; simp at h0; exact h0.2.symm), fun _ _ => tr.accepted_prefix.2.mp rfl⟩
  · exact ⟨_, _, _, rfl, rfl, rfl, (by rintro st oh h0; simp at h0; exact h0.2.symm), (by rintro oh h0; simp at h0)⟩
  · exact ⟨_, _, _, rfl, rfl, rfl, (by rintro st oh h0; cases h0), (by rintro oh h0; cases h0)⟩

end CoreHttp.Props

import Verif.Lemmas.SendTerm
import Verif.Spec.Send

/-! # HTTPClient_SendHttpData and HTTPClient_SendHttpHeaders -/

namespace CoreHttp
open Spec
variable {π σ : Type}

theorem sendData_trace {cfg : Cfg} {fuel : Nat} {T : Transport σ} {send : σ → Bytes → Int × σ} (hT : T.send = some send)
    (hs : SendOk send) {clock : TimeFn σ} (hc : clock ≠ .null) {b len : Nat} {w : World π σ} (hlen : len ≤ (w.mem b).length) :
    ∃ r s' t0 evs, HTTPClient_SendHttpData cfg fuel (some T) clock (some b) len w = (r, ⟨s', w.mem, w.log ++ .time t0 :: evs⟩) ∧
      SendTrace (retryTimeout clock cfg.sendTimeoutMs) ((w.mem b).take len) t0 evs r := by
  unfold HTTPClient_SendHttpData
  simp only [hT, M.bind_apply]
  obtain ⟨t0, s1, e⟩ := readClock_ok hc w
  rw [e]
  obtain ⟨r, s', evs, e2, tr⟩ := sendLoop_trace hs hc (retryTimeout clock cfg.sendTimeoutMs) b fuel 0 len t0
    ⟨s1, w.mem, w.log ++ [.time t0]⟩ (by simpa using hlen)
  refine ⟨r, s', t0, evs, ?_, by simpa using tr⟩
  dsimp only
  rw [e2]; simp

theorem sendFlag_iff (flags : UInt32) (n : Nat) :
    (flags &&& SEND_DISABLE_CONTENT_LENGTH_FLAG = 0 ∧ n > 0) ↔ addsContentLength n flags.toNat = true := by
  have h := and_two_pow_eq_zero flags.toNat 0
  have h2 : (flags &&& SEND_DISABLE_CONTENT_LENGTH_FLAG = 0) ↔ flags.toNat.testBit 0 = false := by
    rw [← UInt32.toNat_inj]
    simp only [UInt32.toNat_and, SEND_DISABLE_CONTENT_LENGTH_FLAG]
    rw [show (1 : UInt32).toNat = 2 ^ 0 by decide, show (0 : UInt32).toNat = 0 by decide]
    exact h
  rw [h2]
  simp [addsContentLength, and_comm]

/-- The application's side of a sending call is in order: usable transport and clock, a buffer of the claimed length, sizes countable in
size_t. -/
structure SendPre (cfg : Cfg) (T : Transport σ) (send : σ → Bytes → Int × σ) (clock : TimeFn σ) (m : Mem) (h : ReqHeaders)
    (b : Nat) : Prop where
  transport : T.send = some send
  sendOk : SendOk send
  clockOk : clock ≠ .null
  buf : HasBuf m h b
  le : h.headersLen ≤ h.bufferLen
  size : h.bufferLen + 30 < 2 ^ cfg.sizeBits

theorem len_cl : CONTENT_LENGTH_FIELD.length = 14 := by decide

/-- Adding the Content-Length header. -/
theorem addContentLength_spec {cfg : Cfg} {m : Mem} {h : ReqHeaders} {b n : Nat} (hbuf : HasBuf m h b)
    (hle : h.headersLen ≤ h.bufferLen) (hsz : h.bufferLen + 30 < 2 ^ cfg.sizeBits) (hn : 0 < n) (hmax : n ≤ 2147483647) :
    (h.bufferLen < (stripBlankLine (headerBlock m h) ++ headerLine (ascii "Content-Length") (decimal n) ++ crlf).length →
      addContentLengthHeader cfg m h n = .ok ⟨.insufficientMemory, h, m⟩) ∧
    ((stripBlankLine (headerBlock m h) ++ headerLine (ascii "Content-Length") (decimal n) ++ crlf).length ≤ h.bufferLen →
      ∃ h' m', addContentLengthHeader cfg m h n = .ok ⟨.success, h', m'⟩ ∧ h'.pBuffer = some b ∧ h'.bufferLen = h.bufferLen ∧
        h'.headersLen ≤ h'.bufferLen ∧ FrameBuf m m' b h.bufferLen ∧
        headerBlock m' h' = stripBlankLine (headerBlock m h) ++ headerLine (ascii "Content-Length") (decimal n) ++ crlf ∧
        h'.headersLen = (headerBlock m' h').length) := by
  have hl := decimal_le10 hmax
  have hcl : CONTENT_LENGTH_FIELD = ascii "Content-Length" := rfl
  have hl14 : (ascii "Content-Length").length = 14 := by decide
  have hk : (stripBlankLine (headerBlock m h)).length ≤ h.headersLen := by
    have h1 := strip_length_le (headerBlock m h)
    have h3 : (headerBlock m h).length ≤ h.headersLen := by
      simp only [headerBlock, hbuf.1, List.length_take]; omega
    omega
  have hlen : (stripBlankLine (headerBlock m h) ++ headerLine (ascii "Content-Length") (decimal n) ++ crlf).length
      = (stripBlankLine (headerBlock m h)).length + 14 + (decimal n).length + 6 := by
    simp only [headerLine, crlf, List.length_append, hl14, List.length_cons, List.length_nil]; omega
  have hdne : decimal n ≠ [] := decimal_ne_nil n
  obtain ⟨st, h', m', e, hb, hbl, hle', hfr, hins, hins2, hsucc, hinv, _, hB, hcase⟩ := addHeader_block (cfg := cfg) (m := m) (h := h)
    (b := b) (f := ascii "Content-Length") (v := decimal n) hbuf.1 (by decide) hdne hle hbuf.2 (by rw [hl14]; omega)
  rw [contentLength_eq hn hmax, hcl, e]
  rw [hl14] at hins hsucc
  rw [hlen]
  constructor
  · intro hlt
    have h0 := hins.mpr hlt
    obtain ⟨rfl, rfl⟩ := hins2 h0
    rw [h0]
  · intro hfit
    have h0 : st = .success := hsucc.mpr ⟨hfit, by decide, clean_decimal n⟩
    obtain ⟨hB1, hB2⟩ := hB h0
    exact ⟨h', m', by rw [h0], hb, hbl, hle', hfr, hB1, hB2⟩

/-- HTTPClient_SendHttpHeaders when the block to send does not fit: nothing at all happens. -/
theorem sendHeaders_nofit {cfg : Cfg} {fuel : Nat} {T : Transport σ} {send : σ → Bytes → Int × σ} {clock : TimeFn σ} {h : ReqHeaders}
    {b n : Nat} {flags : UInt32} {w : World π σ} (pre : SendPre cfg T send clock w.mem h b) (hmax : n ≤ 2147483647)
    (hnofit : h.bufferLen < (wireHeaders (headerBlock w.mem h) n flags.toNat).length) :
    HTTPClient_SendHttpHeaders cfg fuel (some T) clock (some h) n flags w = (.ok (.insufficientMemory, some h), w) := by
  have hfl := sendFlag_iff flags n
  unfold HTTPClient_SendHttpHeaders
  simp only [pre.transport]
  unfold wireHeaders at hnofit
  by_cases ha : addsContentLength n flags.toNat = true
  · rw [if_pos ha] at hnofit
    have hn : 0 < n := (hfl.mpr ha).2
    have := (addContentLength_spec (cfg := cfg) pre.buf pre.le pre.size hn hmax).1 hnofit
    simp only [M.bind_apply, M.world_apply, if_pos (hfl.mpr ha), M.ofRun_apply, this, M.setMem_apply]
    simp
  · rw [if_neg ha] at hnofit
    have : (headerBlock w.mem h).length ≤ h.headersLen := by
      simp only [headerBlock, pre.buf.1, List.length_take]; omega
    have := pre.le
    omega

/-- HTTPClient_SendHttpHeaders when the block to send fits. -/
theorem sendHeaders_fit {cfg : Cfg} {fuel : Nat} {T : Transport σ} {send : σ → Bytes → Int × σ} {clock : TimeFn σ} {h : ReqHeaders}
    {b n : Nat} {flags : UInt32} {w : World π σ} (pre : SendPre cfg T send clock w.mem h b) (hmax : n ≤ 2147483647)
    (hfit : (wireHeaders (headerBlock w.mem h) n flags.toNat).length ≤ h.bufferLen) :
    ∃ h' m', h'.pBuffer = some b ∧ h'.bufferLen = h.bufferLen ∧ h'.headersLen ≤ h'.bufferLen ∧ FrameBuf w.mem m' b h.bufferLen ∧
      headerBlock m' h' = wireHeaders (headerBlock w.mem h) n flags.toNat ∧
      h'.headersLen = (headerBlock m' h').length ∧
      (addsContentLength n flags.toNat = false → h' = h ∧ m' = w.mem) ∧
      HTTPClient_SendHttpHeaders cfg fuel (some T) clock (some h) n flags w =
        ((HTTPClient_SendHttpData cfg fuel (some T) clock (some b) h'.headersLen) >>= fun st => pure (st, some h'))
          ⟨w.env, m', w.log⟩ := by
  have hfl := sendFlag_iff flags n
  unfold HTTPClient_SendHttpHeaders
  simp only [pre.transport]
  unfold wireHeaders at hfit ⊢
  by_cases ha : addsContentLength n flags.toNat = true
  · rw [if_pos ha] at hfit ⊢
    have hn : 0 < n := (hfl.mpr ha).2
    obtain ⟨h', m', e, hb, hbl, hle, hfr, hB, hlen⟩ := (addContentLength_spec (cfg := cfg) pre.buf pre.le pre.size hn hmax).2 hfit
    refine ⟨h', m', hb, hbl, hle, hfr, hB, hlen, (fun h0 => by rw [ha] at h0; cases h0), ?_⟩
    simp only [M.bind_apply, M.world_apply, if_pos (hfl.mpr ha), M.ofRun_apply, e, M.setMem_apply]
    simp [hb]
  · rw [if_neg ha]
    refine ⟨h, w.mem, pre.buf.1, rfl, pre.le, FrameBuf.refl .., rfl, ?_, fun _ => ⟨rfl, rfl⟩, ?_⟩
    · have := pre.buf.2; have := pre.le
      simp only [headerBlock, pre.buf.1, List.length_take]; omega
    · have hna : ¬ (flags &&& SEND_DISABLE_CONTENT_LENGTH_FLAG = 0 ∧ n > 0) := fun h => ha (hfl.mp h)
      simp only [M.bind_apply, M.world_apply, if_neg hna, M.pure_apply, M.setMem_apply]
      simp [pre.buf.1]

end CoreHttp

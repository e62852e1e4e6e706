import Verif.Props.Room
import Verif.Lemmas.SendRecv
import Verif.Model.SendPtr

/-! # C121: a request body that lies in the request's own buffer -/

namespace CoreHttp.Props
open CoreHttp Spec
variable {π σ : Type} {cfg : Cfg} {T : Transport σ} {send : σ → Bytes → Int × σ} {clock : TimeFn σ} {h : ReqHeaders} {b bb off n : Nat} {flags : UInt32}

/-- With a body at the beginning of its block this is the program of Model/Send. -/
theorem sendHttpRequestAt_zero (fuel : Nat) (T : Option (Transport σ)) (rh : Option ReqHeaders) (body : Option Nat) :
    (sendHttpRequestAt cfg fuel T clock rh (body.map fun b => (b, 0)) n flags : M π σ _) = sendHttpRequest cfg fuel T clock rh body n flags := by
  cases body with
  | none => rfl
  | some bb =>
    unfold sendHttpRequestAt sendHttpRequest
    have : (sendHttpBodyAt cfg fuel T clock (some (bb, 0)) n : M π σ _) = sendHttpBody cfg fuel T clock (some bb) n := by
      unfold sendHttpBodyAt sendHttpBody
      cases T with
      | none => rfl
      | some T =>
        unfold HTTPClient_SendHttpDataAt HTTPClient_SendHttpData
        obtain ⟨r, sf⟩ := T
        cases r <;> cases sf <;> rfl
    simp only [Option.map_some, this, Option.isSome_some]
    rfl

theorem sendDataAt_trace {fuel : Nat} (hT : T.send = some send) (hs : SendOk send) (hc : clock ≠ .null) {len : Nat} {w : World π σ}
    (hlen : off + len ≤ (w.mem b).length) :
    ∃ r s' t0 evs, HTTPClient_SendHttpDataAt cfg fuel (some T) clock (some (b, off)) len w = (r, ⟨s', w.mem, w.log ++ .time t0 :: evs⟩) ∧
      SendTrace (retryTimeout clock cfg.sendTimeoutMs) (((w.mem b).drop off).take len) t0 evs r := by
  unfold HTTPClient_SendHttpDataAt
  simp only [hT, M.bind_apply]
  obtain ⟨t0, s1, e⟩ := readClock_ok hc w
  rw [e]
  obtain ⟨r, s', evs, e2, tr⟩ := sendLoop_trace hs hc (retryTimeout clock cfg.sendTimeoutMs) b fuel off len t0
    ⟨s1, w.mem, w.log ++ [.time t0]⟩ hlen
  refine ⟨r, s', t0, evs, ?_, tr⟩
  dsimp only
  rw [e2]; simp

/-- What sending the headers does to their block: the headers sent are at its beginning, everything behind them is as before. -/
theorem sendHeaders_exact {fuel : Nat} {w : World π σ} (pre : SendPre cfg T send clock w.mem h b) (hmax : n ≤ 2147483647)
    (hfit : (wireHeaders (headerBlock w.mem h) n flags.toNat).length ≤ h.bufferLen) :
    ∃ h' m', h'.headersLen = (wireHeaders (headerBlock w.mem h) n flags.toNat).length ∧ (∀ i, i ≠ b → m' i = w.mem i) ∧
      m' b = wireHeaders (headerBlock w.mem h) n flags.toNat ++ (w.mem b).drop (wireHeaders (headerBlock w.mem h) n flags.toNat).length ∧
      HTTPClient_SendHttpHeaders cfg fuel (some T) clock (some h) n flags w =
        ((HTTPClient_SendHttpData cfg fuel (some T) clock (some b) h'.headersLen) >>= fun st => pure (st, some h'))
          ⟨w.env, m', w.log⟩ := by
  have hroom := pre.buf.2
  have hle := pre.le
  have hblk : headerBlock w.mem h = (w.mem b).take h.headersLen := by simp [headerBlock, pre.buf.1]
  have hfl := sendFlag_iff flags n
  unfold HTTPClient_SendHttpHeaders
  simp only [pre.transport]
  unfold wireHeaders at hfit ⊢
  by_cases ha : addsContentLength n flags.toNat = true
  · rw [if_pos ha] at hfit ⊢
    have hn : 0 < n := (hfl.mpr ha).2
    have hl14 : (ascii "Content-Length").length = 14 := by decide
    have hd10 := decimal_le10 hmax
    have hk := kept_le (w.mem b) h.headersLen
    have hst : stripBlankLine (headerBlock w.mem h) = (w.mem b).take (kept (w.mem b) h.headersLen) := by
      rw [hblk, stripBlankLine_take]
    have hsz := pre.size
    have hlen : (stripBlankLine (headerBlock w.mem h) ++ headerLine (ascii "Content-Length") (decimal n) ++ crlf).length =
        kept (w.mem b) h.headersLen + 14 + (decimal n).length + 6 := by
      rw [hst]
      simp only [headerLine, crlf, List.length_append, hl14, List.length_cons, List.length_nil, List.length_take]; omega
    have e : addContentLengthHeader cfg w.mem h n = .ok ⟨.success, { h with headersLen := kept (w.mem b) h.headersLen + 14 + (decimal n).length + 6 },
        w.mem.set b (splice (w.mem b) (kept (w.mem b) h.headersLen) (headerLine (ascii "Content-Length") (decimal n) ++ crlf))⟩ := by
      rw [contentLength_eq hn hmax, show CONTENT_LENGTH_FIELD = ascii "Content-Length" from rfl,
        addHeader_eq pre.buf.1 (by decide) (decimal_ne_nil n) hle hroom (by rw [hl14]; omega), hl14]
      rw [if_neg (by omega), if_neg (by simpa using (by decide : CleanField (ascii "Content-Length"))), if_neg (by simpa using clean_decimal n)]
    rw [hlen] at hfit ⊢
    refine ⟨{ h with headersLen := kept (w.mem b) h.headersLen + 14 + (decimal n).length + 6 },
      w.mem.set b (splice (w.mem b) (kept (w.mem b) h.headersLen) (headerLine (ascii "Content-Length") (decimal n) ++ crlf)), rfl, fun i hi => ?_, ?_, ?_⟩
    rotate_left 2
    · simp only [M.bind_apply, M.world_apply, if_pos (hfl.mpr ha), M.ofRun_apply, e, M.setMem_apply]
      simp [pre.buf.1]
    · simp [Mem.set, hi]
    · rw [Mem.set_same, hst]
      unfold splice
      have : kept (w.mem b) h.headersLen + (headerLine (ascii "Content-Length") (decimal n) ++ crlf).length =
          kept (w.mem b) h.headersLen + 14 + (decimal n).length + 6 := by
        simp only [headerLine, crlf, List.length_append, hl14, List.length_cons, List.length_nil]; omega
      rw [this]
      simp only [List.append_assoc]
  · rw [if_neg ha] at hfit ⊢
    have hl : ((w.mem b).take h.headersLen).length = h.headersLen := by rw [List.length_take]; omega
    refine ⟨h, w.mem, by rw [hblk, hl], fun _ _ => rfl, ?_, ?_⟩
    · rw [hblk, hl, List.take_append_drop]
    · have hna : ¬ (flags &&& SEND_DISABLE_CONTENT_LENGTH_FLAG = 0 ∧ n > 0) := fun h => ha (hfl.mp h)
      simp only [M.bind_apply, M.world_apply, if_neg hna, M.pure_apply, M.setMem_apply]
      simp [pre.buf.1]

/-- What sending does when the body is at offset `off` of block `bb`, whatever lies there: the headers, then what is at that place once the headers are
written. -/
theorem C121_exact {w : World π σ} (pre : SendPre cfg T send clock w.mem h b) (hmax : n ≤ 2147483647) (hn : 0 < n)
    (hfit : (wireHeaders (headerBlock w.mem h) n flags.toNat).length ≤ h.bufferLen) (hroom : off + n ≤ (w.mem bb).length) (fuel : Nat) :
    ∃ r w' evs, ∃ m' : Mem, sendHttpRequestAt cfg fuel (some T) clock (some h) (some (bb, off)) n flags w = (r, w') ∧ w'.log = w.log ++ evs ∧
      (∀ i, i ≠ b → m' i = w.mem i) ∧
      m' b = wireHeaders (headerBlock w.mem h) n flags.toNat ++ (w.mem b).drop (wireHeaders (headerBlock w.mem h) n flags.toNat).length ∧
      accepted evs <+: wireHeaders (headerBlock w.mem h) n flags.toNat ++ ((m' bb).drop off).take n ∧
      (∀ oh, r = .ok (.success, oh) → accepted evs = wireHeaders (headerBlock w.mem h) n flags.toNat ++ ((m' bb).drop off).take n) ∧
      (∀ f, r ≠ .fault f) := by
  obtain ⟨h', m', hlen, hoth, hmb, e⟩ := sendHeaders_exact (fuel := fuel) pre hmax hfit
  have hrb := pre.buf.2
  have hlb : (m' b).length = (w.mem b).length := by
    rw [hmb, List.length_append, List.length_drop]; omega
  have hlbb : (m' bb).length = (w.mem bb).length := by
    by_cases hb : bb = b
    · rw [hb]; exact hlb
    · rw [hoth bb hb]
  have htake : (m' b).take h'.headersLen = wireHeaders (headerBlock w.mem h) n flags.toNat := by rw [hmb, hlen, List.take_left]
  generalize wireHeaders (headerBlock w.mem h) n flags.toNat = wire at *
  obtain ⟨r, s', t0, evs, e2, tr⟩ := sendData_trace (cfg := cfg) (fuel := fuel) (w := ⟨w.env, m', w.log⟩) (b := b) (len := h'.headersLen)
    pre.transport pre.sendOk pre.clockOk (by show _ ≤ (m' b).length; omega)
  dsimp only at e2 tr
  rw [htake] at tr
  have start : sendHttpRequestAt cfg fuel (some T) clock (some h) (some (bb, off)) n flags w =
      (HTTPClient_SendHttpHeaders cfg fuel (some T) clock (some h) n flags >>= fun r =>
        if r.1 = .success then do
            let st ← sendHttpBodyAt cfg fuel (some T) clock (some (bb, off)) n
            pure (st, r.2)
        else pure r) w := by
    unfold sendHttpRequestAt
    cases hc : clock with
    | null => exact absurd hc pre.clockOk
    | zero => rfl
    | user f => rfl
  rw [start]
  simp only [M.bind_apply, e, e2]
  rcases tr.outcome with rfl | rfl | rfl
  · have hall := tr.accepted_prefix.2.mp rfl
    obtain ⟨r, s2, t1, evs2, e3, tr2⟩ := sendDataAt_trace (cfg := cfg) (fuel := fuel) (w := ⟨s', m', w.log ++ .time t0 :: evs⟩) (b := bb) (off := off)
      (len := n) pre.transport pre.sendOk pre.clockOk (by show _ ≤ (m' bb).length; omega)
    have e4 : sendHttpBodyAt cfg fuel (some T) clock (some (bb, off)) n (⟨s', m', w.log ++ .time t0 :: evs⟩ : World π σ) =
        HTTPClient_SendHttpDataAt cfg fuel (some T) clock (some (bb, off)) n ⟨s', m', w.log ++ .time t0 :: evs⟩ := by
      unfold sendHttpBodyAt
      simp only [pre.transport]
    dsimp only at e3 tr2
    have hacc : accepted (Ev.time t0 :: evs ++ Ev.time t1 :: evs2) = wire ++ accepted evs2 := by
      rw [accepted_append']
      show accepted evs ++ accepted evs2 = _
      rw [hall]
    simp only [M.pure_apply, if_true, M.bind_apply, e4, e3]
    have hpre : accepted (Ev.time t0 :: evs ++ Ev.time t1 :: evs2) <+: wire ++ ((m' bb).drop off).take n := by
      rw [hacc]
      exact (List.prefix_append_right_inj _).2 tr2.accepted_prefix.1
    rcases tr2.outcome with rfl | rfl | rfl
    · exact ⟨_, _, Ev.time t0 :: evs ++ Ev.time t1 :: evs2, m', rfl, by simp, hoth, hmb, hpre, fun oh _ => by rw [hacc, tr2.accepted_prefix.2.mp rfl],
        fun f h0 => by cases h0⟩
    · exact ⟨_, _, Ev.time t0 :: evs ++ Ev.time t1 :: evs2, m', rfl, by simp, hoth, hmb, hpre, fun oh h0 => (by simp at h0), fun f h0 => by cases h0⟩
    · exact ⟨_, _, Ev.time t0 :: evs ++ Ev.time t1 :: evs2, m', rfl, by simp, hoth, hmb, hpre, fun oh h0 => (by cases h0), fun f h0 => by cases h0⟩
  · exact ⟨_, _, Ev.time t0 :: evs, m', rfl, rfl, hoth, hmb, tr.accepted_prefix.1.trans (List.prefix_append _ _), fun oh h0 => (by simp at h0),
      fun f h0 => by cases h0⟩
  · exact ⟨_, _, Ev.time t0 :: evs, m', rfl, rfl, hoth, hmb, tr.accepted_prefix.1.trans (List.prefix_append _ _), fun oh h0 => (by cases h0),
      fun f h0 => by cases h0⟩

/-- **C121.** A request body may lie anywhere in memory, also in the buffer of the request, provided it begins at or behind the end of the headers as they are sent
(for prepared headers of `headersLen` bytes to which the library adds Content-Length: 18 bytes and one byte per decimal digit of the length behind them): at
every moment the bytes the transport has accepted are a prefix of headers and body, the body as it was before the call, and all of it when the call succeeds;
no call faults. -/
theorem C121_body_behind_headers {w : World π σ} (pre : SendPre cfg T send clock w.mem h b) (hmax : n ≤ 2147483647) (hn : 0 < n)
    (hfit : (wireHeaders (headerBlock w.mem h) n flags.toNat).length ≤ h.bufferLen) (hroom : off + n ≤ (w.mem bb).length)
    (hplace : bb = b → (wireHeaders (headerBlock w.mem h) n flags.toNat).length ≤ off) (fuel : Nat) :
    ∃ r w' evs, sendHttpRequestAt cfg fuel (some T) clock (some h) (some (bb, off)) n flags w = (r, w') ∧ w'.log = w.log ++ evs ∧
      accepted evs <+: wireHeaders (headerBlock w.mem h) n flags.toNat ++ ((w.mem bb).drop off).take n ∧
      (∀ oh, r = .ok (.success, oh) → accepted evs = wireHeaders (headerBlock w.mem h) n flags.toNat ++ ((w.mem bb).drop off).take n) ∧
      (∀ f, r ≠ .fault f) := by
  obtain ⟨r, w', evs, m', e, hl, hoth, hmb, h1, h2, h3⟩ := C121_exact (flags := flags) pre hmax hn hfit hroom fuel
  have : (m' bb).drop off = (w.mem bb).drop off := by
    by_cases hb : bb = b
    · subst hb
      have hp := hplace rfl
      rw [hmb, List.drop_append, List.drop_eq_nil_of_le hp, List.drop_drop, List.nil_append]
      congr 1
      omega
    · rw [hoth bb hb]
  rw [this] at h1 h2
  exact ⟨r, w', evs, e, hl, h1, h2, h3⟩

/-- When the library adds no Content-Length header (HTTP_SEND_DISABLE_CONTENT_LENGTH_FLAG), the body may begin right behind the headers, or anywhere. -/
theorem C121_no_content_length {w : World π σ} (pre : SendPre cfg T send clock w.mem h b) (hmax : n ≤ 2147483647) (hn : 0 < n)
    (hno : addsContentLength n flags.toNat = false) (hroom : off + n ≤ (w.mem bb).length) (fuel : Nat) :
    ∃ r w' evs, sendHttpRequestAt cfg fuel (some T) clock (some h) (some (bb, off)) n flags w = (r, w') ∧ w'.log = w.log ++ evs ∧
      accepted evs <+: headerBlock w.mem h ++ ((w.mem bb).drop off).take n ∧
      (∀ oh, r = .ok (.success, oh) → accepted evs = headerBlock w.mem h ++ ((w.mem bb).drop off).take n) ∧ (∀ f, r ≠ .fault f) := by
  have hw : wireHeaders (headerBlock w.mem h) n flags.toNat = headerBlock w.mem h := by
    unfold wireHeaders; rw [hno]; rfl
  have hblk : headerBlock w.mem h = (w.mem b).take h.headersLen := by simp [headerBlock, pre.buf.1]
  have hrb := pre.buf.2
  have hle := pre.le
  have hl : (headerBlock w.mem h).length = h.headersLen := by rw [hblk, List.length_take]; omega
  obtain ⟨r, w', evs, m', e, hlg, hoth, hmb, h1, h2, h3⟩ := C121_exact (flags := flags) pre hmax hn (by rw [hw]; omega) hroom fuel
  rw [hw, hl, hblk, List.take_append_drop] at hmb
  have : m' bb = w.mem bb := by
    by_cases hb : bb = b
    · rw [hb, hmb]
    · exact hoth bb hb
  rw [this, hw] at h1 h2
  exact ⟨r, w', evs, e, hlg, h1, h2, h3⟩

/-- **C121, the bound is needed.** One byte sooner, and the first byte of the body sent is a line feed, whatever it was: a send that succeeds has sent another body
than the one given, unless that began with a line feed. -/
theorem C121_bound_needed {w : World π σ} (pre : SendPre cfg T send clock w.mem h b) (hmax : n ≤ 2147483647) (hn : 0 < n)
    (hadd : addsContentLength n flags.toNat = true) (hfit : (wireHeaders (headerBlock w.mem h) n flags.toNat).length ≤ h.bufferLen)
    (hroom : off + n ≤ (w.mem b).length) (hplace : off + 1 = (wireHeaders (headerBlock w.mem h) n flags.toNat).length) (fuel : Nat) :
    ∃ r w' evs, sendHttpRequestAt cfg fuel (some T) clock (some h) (some (b, off)) n flags w = (r, w') ∧ w'.log = w.log ++ evs ∧
      ∀ oh, r = .ok (.success, oh) → ∃ rest, accepted evs = wireHeaders (headerBlock w.mem h) n flags.toNat ++ 10 :: rest := by
  obtain ⟨r, w', evs, m', e, hl, hoth, hmb, h1, h2, h3⟩ := C121_exact (flags := flags) pre hmax hn hfit hroom fuel
  obtain ⟨x, hx⟩ : ∃ x, wireHeaders (headerBlock w.mem h) n flags.toNat = x ++ [10] := by
    unfold wireHeaders
    rw [if_pos hadd]
    exact ⟨_, by rw [show crlf = [13] ++ [10] from rfl, ← List.append_assoc]⟩
  have hxl : x.length = off := by
    rw [hx] at hplace; simp only [List.length_append, List.length_cons, List.length_nil] at hplace; omega
  have hd : (m' b).drop off = 10 :: (w.mem b).drop (wireHeaders (headerBlock w.mem h) n flags.toNat).length := by
    rw [hmb, hx, List.append_assoc, ← hxl, List.drop_left]; rfl
  obtain ⟨k, rfl⟩ : ∃ k, n = k + 1 := ⟨n - 1, by omega⟩
  rw [hd, List.take_succ_cons] at h2
  exact ⟨r, w', evs, e, hl, fun oh h0 => ⟨_, h2 oh h0⟩⟩

/-- Headers "GET / HTTP/1.1\r\n\r\n" (18 bytes), and behind 19 free bytes (what "Content-Length: 5" takes) the body "hello", in one buffer of 64 bytes. -/
def exOneBuffer : Mem := fun _ => ascii "GET / HTTP/1.1\r\n\r\n" ++ List.replicate 19 0 ++ ascii "hello" ++ List.replicate 22 0

theorem exOnePre (m : ExEnv) : SendPre exCfg exTransport exSend (.user exClock) (⟨m, exOneBuffer, []⟩ : World Unit ExEnv).mem exHdrS 0 :=
  ⟨rfl, exSendOk, (by intro h; cases h), ⟨rfl, (by decide : exHdrS.bufferLen ≤ (exOneBuffer 0).length)⟩, by decide, by decide⟩

example : (wireHeaders (headerBlock exOneBuffer exHdrS) 5 0).length = 37 := by decide
example : ((exOneBuffer 0).drop 37).take 5 = ascii "hello" := by decide

/-- The hypotheses of C121 hold for it, and the run succeeds. -/
example (m : ExEnv) : ∃ r w' evs, sendHttpRequestAt exCfg 40 (some exTransport) (.user exClock) (some exHdrS) (some (0, 37)) 5 0
      (⟨m, exOneBuffer, []⟩ : World Unit ExEnv) = (r, w') ∧ w'.log = evs ∧
    ∀ oh, r = .ok (.success, oh) → accepted evs = ascii "GET / HTTP/1.1\r\nContent-Length: 5\r\n\r\nhello" := by
  obtain ⟨r, w', evs, e, hl, _, h2, _⟩ := C121_body_behind_headers (n := 5) (off := 37) (bb := 0) (flags := 0) (exOnePre m) (by decide) (by decide)
    (by show (wireHeaders (headerBlock exOneBuffer exHdrS) 5 (0 : UInt32).toNat).length ≤ 64; decide)
    (by show 37 + 5 ≤ (exOneBuffer 0).length; decide)
    (fun _ => by show (wireHeaders (headerBlock exOneBuffer exHdrS) 5 (0 : UInt32).toNat).length ≤ 37; decide) 40
  have hw : wireHeaders (headerBlock exOneBuffer exHdrS) 5 (0 : UInt32).toNat ++ ((exOneBuffer 0).drop 37).take 5 =
      ascii "GET / HTTP/1.1\r\nContent-Length: 5\r\n\r\nhello" := by decide
  exact ⟨r, w', evs, e, by simpa using hl, fun oh h0 => (h2 oh h0).trans hw⟩

example : (sendHttpRequestAt exCfg 40 (some exTransport) (.user exClock) (some exHdrS) (some (0, 37)) 5 0 (⟨0, exOneBuffer, []⟩ : World Unit ExEnv)).1 =
    .ok (.success, some ⟨some 0, 64, 37⟩) := by decide +kernel

/-- With the body one byte sooner, "\nhell" is sent. -/
example : accepted (sendHttpRequestAt exCfg 40 (some exTransport) (.user exClock) (some exHdrS) (some (0, 36)) 5 0
    (⟨0, fun _ => ascii "GET / HTTP/1.1\r\n\r\n" ++ List.replicate 18 0 ++ ascii "hello" ++ List.replicate 23 0, []⟩ : World Unit ExEnv)).2.log =
    ascii "GET / HTTP/1.1\r\nContent-Length: 5\r\n\r\n\nello" := by decide +kernel

end CoreHttp.Props

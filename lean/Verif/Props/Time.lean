import Verif.Lemmas.Time
import Verif.Props.SendRecv

/-!
# Property C73: how long a call can take

Every call of the transport or the clock takes at most `D` ms and every header callback at most `E` ms (`Timed`, which also says that the clock
shows the true time modulo 2^32). Nothing else is assumed of the environment: it may accept or deliver nothing at all, for ever. `goodSends`,
`goodRecvs` and `headerCalls` count the transport calls that made progress and the callbacks. The bounds hold at every moment of every run
(for every fuel), hence also when the call returns.
-/

namespace CoreHttp.Props
open CoreHttp Spec
variable {σ : Type} {P : Parser} {cfg : Cfg} {strict : Bool} {T : Transport σ} {send : σ → Bytes → Int × σ} {recv : σ → Nat → Int × Bytes × σ}
  {resp : Resp σ} {rh : ReqHeaders} {b rb : Nat} {body : Option Nat} {n : Nat} {flags : UInt32} {now : σ → Nat} {D E : Nat}

/-- **C73, sending.** HTTPClient_SendHttpData spends at most send timeout + 2·D between two moments of progress. -/
theorem C73_sendData {clock : TimeFn σ} (H : Timed now D 0 send recv clock none) (hs : T.send = some send)
    (hw : cfg.sendTimeoutMs.toNat + 2 * D < 2 ^ 32) (pData : Option Nat) (len fuel : Nat) (w : World PLog σ) :
    ∃ r w' evs, HTTPClient_SendHttpData cfg fuel (some T) clock pData len w = (r, w') ∧ w'.log = w.log ++ evs ∧ now w.env ≤ now w'.env ∧
      now w'.env ≤ now w.env + D + (goodSends evs + 1) * (cfg.sendTimeoutMs.toNat + 2 * D) := by
  obtain ⟨h1, ⟨evs, h2, h3⟩, _⟩ := sendData_within (Cr := 0) (W := 0) H cfg hs pData len fuel hw w
  generalize HTTPClient_SendHttpData cfg fuel (some T) clock pData len w = x at h1 h2 h3
  obtain ⟨r, w'⟩ := x
  have := h3 (by omega)
  refine ⟨r, w', evs, rfl, h2, h1, ?_⟩
  simp only [cost, Nat.add_mul, Nat.mul_zero] at this ⊢
  omega

/-- **C73, receiving.** HTTPClient_ReceiveAndParseHttpResponse spends at most receive timeout + 2·D between two moments of progress, plus the
time taken by the callbacks (which together must not take so long that the clock wraps around). -/
theorem C73_receive (H : Timed now D E send recv resp.getTime resp.pHeaderParsingCallback) (hr : T.recv = some recv)
    (orh : Option ReqHeaders) (fuel : Nat) (w : World PLog σ) :
    ∃ r w' evs, HTTPClient_ReceiveAndParseHttpResponse P cfg fuel (some T) (some resp) orh w = (r, w') ∧ w'.log = w.log ++ evs ∧
      now w.env ≤ now w'.env ∧
      (headerCalls evs * E + cfg.recvTimeoutMs.toNat + 2 * D < 2 ^ 32 →
        now w'.env ≤ now w.env + D + (goodRecvs evs + 1) * (cfg.recvTimeoutMs.toNat + 2 * D) + headerCalls evs * E) := by
  obtain ⟨h1, ⟨evs, h2, h3⟩, _⟩ := receive_within (Cs := 0) P cfg hr H orh fuel w
  generalize HTTPClient_ReceiveAndParseHttpResponse P cfg fuel (some T) (some resp) orh w = x at h1 h2 h3
  obtain ⟨r, w'⟩ := x
  refine ⟨r, w', evs, rfl, h2, h1, fun hh => ?_⟩
  have := h3 (by omega)
  simp only [cost, Nat.add_mul, Nat.mul_zero] at this ⊢
  omega

/-- **C73, a whole exchange.** For every request, body and flags, with no assumption about the parser. -/
theorem C73_send (H : Timed now D E send recv (withClock resp).getTime resp.pHeaderParsingCallback) (hs : T.send = some send)
    (hr : T.recv = some recv) (hw : cfg.sendTimeoutMs.toNat + 2 * D < 2 ^ 32) (orh : Option ReqHeaders) (fuel : Nat) (w : World PLog σ) :
    ∃ r w' evs, HTTPClient_Send P cfg fuel (some T) orh body n (some resp) flags w = (r, w') ∧ w'.log = w.log ++ evs ∧
      now w.env ≤ now w'.env ∧
      (headerCalls evs * E + cfg.recvTimeoutMs.toNat + 2 * D < 2 ^ 32 →
        now w'.env ≤ now w.env + 3 * D + (goodSends evs + 2) * (cfg.sendTimeoutMs.toNat + 2 * D)
          + (goodRecvs evs + 1) * (cfg.recvTimeoutMs.toNat + 2 * D) + headerCalls evs * E) := by
  obtain ⟨h1, ⟨evs, h2, h3⟩, _⟩ := send_within P cfg hs hr H orh body n flags fuel hw w
  generalize HTTPClient_Send P cfg fuel (some T) orh body n (some resp) flags w = x at h1 h2 h3
  obtain ⟨r, w'⟩ := x
  refine ⟨r, w', evs, rfl, h2, h1, fun hh => ?_⟩
  have := h3 (by omega)
  simp only [cost, Nat.add_mul] at this ⊢
  omega

theorem goodSends_le {evs : List (Ev PLog)} (h : ∀ d ret, Ev.send d ret ∈ evs → d ≠ []) : goodSends evs ≤ (accepted evs).length := by
  induction evs with
  | nil => simp [goodSends]
  | cons e es ih =>
    have h1 := ih fun d ret hm => h d ret (List.mem_cons_of_mem _ hm)
    cases e with
    | send d ret =>
      have h2 : 0 < d.length := List.length_pos_iff.mpr (h d ret List.mem_cons_self)
      simp only [goodSends, accepted, List.length_append, List.length_take]
      split <;> omega
    | _ => exact h1

theorem goodRecvs_le {evs : List (Ev PLog)} (h : ∀ off len ret data, Ev.recv off len ret data ∈ evs → data.length = ret.toNat) :
    goodRecvs evs ≤ (received evs).length := by
  induction evs with
  | nil => simp [goodRecvs]
  | cons e es ih =>
    have h1 := ih fun off len ret data hm => h off len ret data (List.mem_cons_of_mem _ hm)
    cases e with
    | recv off len ret data =>
      have h2 := h off len ret data List.mem_cons_self
      simp only [goodRecvs, received, List.length_append]
      split <;> omega
    | _ => exact h1

theorem goodRecvs_none {evs : List (Ev PLog)} (h : recvs evs = []) : goodRecvs evs = 0 := by
  induction evs with
  | nil => rfl
  | cons e es ih => cases e <;> simp [recvs] at h <;> exact ih h

/-- How often progress can be made: at most once for each byte sent and each byte of the response buffer. -/
theorem C73_progress {w : World PLog σ} (hp : CallPre strict P cfg T send recv rh rb body n resp b w.mem) (fuel : Nat) :
    ∃ r w' evs, HTTPClient_Send P cfg fuel (some T) (some rh) body n (some resp) flags w = (r, w') ∧ w'.log = w.log ++ evs ∧
      goodSends evs ≤ (wireRequest w.mem rh body n flags).length ∧ goodRecvs evs ≤ resp.bufferLen := by
  obtain ⟨r, w', evs, e, hl, hpre, hoff, _⟩ := C26_order (flags := flags) hp fuel
  refine ⟨r, w', evs, e, hl, ?_, ?_⟩
  · refine Nat.le_trans (goodSends_le fun d ret hm => ?_) hpre.length_le
    obtain ⟨pre, post, h⟩ := List.append_of_mem hm
    exact (hoff _ _ _ _ h).1
  · rcases send_composition (flags := flags) hp fuel with ⟨w1, rh', e1, hl1, hacc, hrec, _, _, hr, h⟩ | ⟨r1, w1, e1, h, hl1, hrec, _⟩
    · obtain ⟨r2, w2, e2, h2, hl2, hc, hle⟩ := C29_receive_contiguous hr fuel
      simp only [M.bind_apply, h2] at h
      have hw : w' = w2 := by
        rw [e] at h
        cases r2 <;> exact congrArg Prod.snd h
      subst hw
      obtain rfl : evs = e1 ++ e2 := by
        have := hl.symm.trans (hl2.trans (by rw [hl1, List.append_assoc]))
        exact List.append_cancel_left this
      rw [goodRecvs_append, goodRecvs_none hrec, Nat.zero_add]
      refine Nat.le_trans (goodRecvs_le fun off len ret data hm => ?_) hle
      obtain ⟨pre, post, h⟩ := List.append_of_mem hm
      exact (hc _ _ _ _ _ _ h).2.2.2
    · rw [e] at h
      have hw : w' = w1 := congrArg Prod.snd h
      subst hw
      obtain rfl : evs = e1 := List.append_cancel_left (hl.symm.trans hl1)
      rw [goodRecvs_none hrec]
      exact Nat.zero_le _

/-- **C73, in numbers.** Without a header callback, the time a call of HTTPClient_Send can take depends only on the number of bytes to send, the size of
the response buffer, the two timeouts and the time a transport call takes – not on what the network does. -/
theorem C73_send_total {w : World PLog σ} (hp : CallPre strict P cfg T send recv rh rb body n resp b w.mem)
    (H : Timed now D 0 send recv (withClock resp).getTime resp.pHeaderParsingCallback) 
    (hw : cfg.sendTimeoutMs.toNat + 2 * D < 2 ^ 32) (hw' : cfg.recvTimeoutMs.toNat + 2 * D < 2 ^ 32) (fuel : Nat) :
    now w.env ≤ now (HTTPClient_Send P cfg fuel (some T) (some rh) body n (some resp) flags w).2.env ∧
    now (HTTPClient_Send P cfg fuel (some T) (some rh) body n (some resp) flags w).2.env ≤
      now w.env + 3 * D + ((wireRequest w.mem rh body n flags).length + 2) * (cfg.sendTimeoutMs.toNat + 2 * D)
        + (resp.bufferLen + 1) * (cfg.recvTimeoutMs.toNat + 2 * D) := by
  obtain ⟨r, w', evs, e, hl, h1, h2⟩ := C73_send (P := P) (body := body) (n := n) (flags := flags) H hp.hasSend hp.hasRecv hw (some rh) fuel w
  obtain ⟨r2, w2, evs2, e2, hl2, g1, g2⟩ := C73_progress (flags := flags) hp fuel
  have hww : w' = w2 := by rw [e] at e2; exact congrArg Prod.snd e2
  subst hww
  obtain rfl : evs = evs2 := List.append_cancel_left (hl.symm.trans hl2)
  rw [e]
  refine ⟨h1, ?_⟩
  have h3 := h2 (by omega)
  have h4 := Nat.mul_le_mul_right (cfg.sendTimeoutMs.toNat + 2 * D) (Nat.add_le_add_right g1 2)
  have h5 := Nat.mul_le_mul_right (cfg.recvTimeoutMs.toNat + 2 * D) (Nat.add_le_add_right g2 1)
  show now w'.env ≤ _
  omega

/-! ### Non-vacuity -/

/-- A network that takes 1 ms per call. -/
theorem xTimed : Timed (fun s : Script => s.1) 1 0 xSend scriptRecv (.user scriptClock) (some exCb) where
  send := fun s d => by simp [xSend]
  recv := by
    rintro ⟨t, s⟩ n
    cases s <;> simp [scriptRecv]
  clockTime := fun f h s => by cases h; simp [scriptClock]
  reading := fun f h s => by cases h; rfl
  header := fun c h s a x b v code => by cases h; simp [exCb]

/-- C73 applies to the exchange of C60 and C61, whatever the network delivers and whenever the call starts: 42 bytes are sent, the response buffer has
200 bytes and both timeouts are 10 ms, so that the call returns after at most 2943 ms. -/
example (s : Script) (fuel : Nat) :
    (HTTPClient_Send Ref.httpParser exCfg fuel (some xT) (some xReq) (some 2) 5 (some { exResp 200 0 with pBuffer := some 1 }) 0
      ⟨s, xMem, []⟩).2.env.1 ≤ s.1 + 2943 := by
  have h := (C73_send_total (flags := 0) (w := ⟨s, xMem, []⟩) (xCallPre 1 (.inr rfl)) xTimed (by decide) (by decide) fuel).2
  have h1 : (wireRequest xMem xReq (some 2) 5 0).length = 42 := by decide +kernel
  have h2 : exCfg.sendTimeoutMs.toNat = 10 := by decide
  have h3 : exCfg.recvTimeoutMs.toNat = 10 := by decide
  dsimp only at h
  rw [h1, h2, h3] at h
  have h4 : ({ exResp 200 0 with pBuffer := some 1 } : Resp Script).bufferLen = 200 := rfl
  rw [h4] at h
  exact h

/-- A run on a network that goes silent after half a response: it returns 21 ms after the start. -/
example : (HTTPClient_Send Ref.httpParser exCfg 100 (some xT) (some xReq) (some 2) 5 (some { exResp 200 0 with pBuffer := some 1 }) 0
      ⟨(1000, [ascii "HTTP/1.1 200 OK\r\nA: b\r\n"]), xMem, []⟩).2.env.1 = 1021 := by decide +kernel

end CoreHttp.Props

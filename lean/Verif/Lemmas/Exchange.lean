import Verif.Lemmas.Keeps
import Verif.Lemmas.SendRecv
import Verif.Props.Receive

/-! # Exchanges with a cooperative peer -/

namespace CoreHttp
open Spec
variable {σ : Type}

/-- Counting receive calls. -/
theorem count_inv {send : σ → Bytes → Int × σ} {recv : σ → Nat → Int × Bytes × σ} (hx : ∀ s len, (recv s len).1 = ((recv s len).2.1.length : Int))
    (clock : TimeFn σ) (cb : Option (HeaderCb σ)) (k : Nat) : EnvInv (fun _ l => k ≤ (recvs l).length) send recv clock cb where
  stored := fun s len => by rw [hx]; omega
  send := by intro s l d _ h; rw [recvs_append, List.length_append]; omega
  recv := by intro s l off len h; rw [recvs_append, List.length_append]; omega
  zero := by intro _ s l h; rw [recvs_append, List.length_append]; omega
  user := by intro f _ s l h; rw [recvs_append, List.length_append]; omega
  header := by intro c _ s l a f b v code h; rw [recvs_append, List.length_append]; omega
  call := by intro s l off data h; rw [recvs_append, List.length_append]; omega
  event := by intro s l e h; rw [recvs_append, List.length_append]; omega

/-- A run that is cut off has made `fuel` receive calls. -/
theorem recvLoop_more {P : Parser} {cfg : Cfg} {recv : σ → Nat → Int × Bytes × σ} (hx : ∀ s len, (recv s len).1 = ((recv s len).2.1.length : Int))
    (T : UInt32) (b : Nat) :
    ∀ (fuel total : Nat) (last : UInt32) (h : RS P.St σ) (w : World PLog σ) (k : Nat), h.resp.getTime ≠ .null → k ≤ (recvs w.log).length →
      (recvLoop P cfg recv T b fuel total last h w).1 = .more → k + fuel ≤ (recvs (recvLoop P cfg recv T b fuel total last h w).2.log).length := by
  intro fuel
  induction fuel with
  | zero => intro total last h w k _ hk _; exact hk
  | succ n ih =>
    intro total last h w k hg hk
    unfold recvLoop
    simp only [M.bind_apply, M.world_apply, M.ofRun_apply]
    generalize recv w.env (h.resp.bufferLen - total) = r
    unfold memWrite
    by_cases hw : total + r.2.1.length ≤ (w.mem b).length
    · simp only [if_pos hw, M.setEnv_apply, M.setMem_apply, M.emit_apply]
      generalize hw0 : ({ env := _, mem := _, log := _ } : World PLog σ) = w0
      have hk0 : k + 1 ≤ (recvs w0.log).length := by rw [← hw0]; simp [recvs_append, recvs]; omega
      obtain ⟨t, s', e⟩ := readClock_ok hg w0
      by_cases h1 : r.1 < 0
      · simp [h1]
      · by_cases h2 : r.1 > 0
        · simp only [if_neg h1, if_pos h2, M.bind_apply, e]
          generalize hw1 : ({ env := _, mem := _, log := _ } : World PLog σ) = w1
          have hk1 : k + 1 ≤ (recvs w1.log).length := by rw [← hw1]; simp [recvs_append, recvs]; omega
          obtain ⟨q1, q2⟩ := parse_nm P cfg b h r.1.toNat w1
          obtain ⟨q5, _⟩ := parse_keeps (count_inv (send := fun s _ => (0, s)) hx h.resp.getTime h.resp.pHeaderParsingCallback (k + 1)) P cfg b
            ⟨rfl, rfl⟩ r.1.toNat w1 hk1
          rcases hq : parseHttpResponse P cfg b h r.1.toNat w1 with ⟨⟨st, h'⟩ | f | _, w2⟩
          · rw [hq] at q2 q5
            obtain ⟨q3, q4⟩ := q2 _ rfl
            dsimp only at q3 q4 q5 ⊢
            by_cases hgo : st = .success ∧ h'.ctx.state ≠ .complete ∧ total + r.1.toNat < h'.resp.bufferLen
            · rw [if_pos hgo]
              intro hm
              have := ih _ _ _ _ (k + 1) (by rw [q4]; exact hg) q5 hm
              omega
            · rw [if_neg hgo]; simp
          · simp
          · rw [hq] at q1; exact absurd rfl q1
        · simp only [if_neg h1, if_neg h2, M.bind_apply, e]
          generalize hw1 : ({ env := _, mem := _, log := _ } : World PLog σ) = w1
          have hk1 : k + 1 ≤ (recvs w1.log).length := by rw [← hw1]; simp [recvs_append, recvs]; omega
          by_cases h4 : t - last ≥ T
          · rw [if_pos h4]
            obtain ⟨q1, q2⟩ := parse_nm P cfg b h 0 w1
            simp only [M.bind_apply]
            rcases hq : parseHttpResponse P cfg b h 0 w1 with ⟨⟨st, h'⟩ | f | _, w2⟩
            · simp
            · simp
            · rw [hq] at q1; exact absurd rfl q1
          · rw [if_neg h4]
            by_cases hgo : h.ctx.state ≠ .complete ∧ total < h.resp.bufferLen
            · rw [if_pos hgo]
              intro hm
              have := ih _ _ _ _ (k + 1) hg hk1 hm
              omega
            · rw [if_neg hgo]; simp
    · simp [hw]

variable {P : Parser} {cfg : Cfg} {strict : Bool} {T : Transport σ} {send : σ → Bytes → Int × σ} {recv : σ → Nat → Int × Bytes × σ} {resp : Resp σ}
  {rh : ReqHeaders} {b rb : Nat} {body : Option Nat} {n : Nat} {flags : UInt32}

theorem receive_more {w : World PLog σ} (hp : RecvPre strict P cfg T recv resp rh b rb w.mem)
    (hx : ∀ s len, (recv s len).1 = ((recv s len).2.1.length : Int)) {fuel : Nat}
    (hm : (HTTPClient_ReceiveAndParseHttpResponse P cfg fuel (some T) (some resp) (some rh) w).1 = .more) :
    (recvs w.log).length + fuel ≤ (recvs (HTTPClient_ReceiveAndParseHttpResponse P cfg fuel (some T) (some resp) (some rh) w).2.log).length := by
  obtain ⟨t0, s0, ht0⟩ := readClock_ok hp.clock w
  rw [receive_start hp fuel ht0] at hm ⊢
  simp only [M.bind_apply] at hm ⊢
  have key := recvLoop_more (P := P) (cfg := cfg) hx (retryTimeout resp.getTime cfg.recvTimeoutMs) b fuel 0 t0
    ⟨resp, ⟨P.init, .none, false, startsHead w.mem rb, none, none, 0, none, 0⟩⟩ ⟨s0, w.mem, w.log ++ [.time t0]⟩ (recvs w.log).length hp.clock
    (by rw [recvs_append, List.length_append]; omega)
  revert hm key
  generalize recvLoop P cfg recv (retryTimeout resp.getTime cfg.recvTimeoutMs) b fuel 0 t0
    ⟨resp, ⟨P.init, .none, false, startsHead w.mem rb, none, none, 0, none, 0⟩⟩ ⟨s0, w.mem, w.log ++ [.time t0]⟩ = z
  obtain ⟨r, w1⟩ := z
  intro hm key
  cases r with
  | ok a => exact absurd hm (Props.finishReceive_nm cfg a.1 a.2.1 a.2.2 w1).1
  | fault f => simp at hm
  | more => exact key rfl

/-- A peer that accepts something of everything offered. -/
theorem sendLoop_all {send : σ → Bytes → Int × σ} (hs : SendOk send) (hpos : ∀ s d, d ≠ [] → 0 < (send s d).1) {clock : TimeFn σ}
    (hc : clock ≠ .null) (T : UInt32) (b : Nat) :
    ∀ (fuel off rem : Nat) (last : UInt32) (w : World PLog σ), off + rem ≤ (w.mem b).length → rem ≤ fuel →
      (sendLoop send clock T b fuel off rem last w).1 = .ok .success := by
  intro fuel
  induction fuel with
  | zero =>
    intro off rem last w _ h
    obtain rfl : rem = 0 := by omega
    unfold sendLoop; simp
  | succ n ih =>
    intro off rem last w hlen hf
    unfold sendLoop
    by_cases hr : rem = 0
    · rw [if_pos hr]; simp
    rw [if_neg hr]
    generalize hd : ((w.mem b).drop off).take rem = d
    have hdl : d.length = rem := by rw [← hd]; simp; omega
    have hm : memRead (w.mem b) off rem = .ok d := by simp [memRead, hlen, hd]
    simp only [M.bind_apply, M.world_apply, M.ofRun_apply, hm, M.setEnv_apply, M.emit_apply]
    have hle := hs w.env d
    have hp := hpos w.env d (by intro h; rw [h] at hdl; simp at hdl; omega)
    generalize send w.env d = r at hle hp
    have hle' : r.1.toNat ≤ rem := by omega
    rw [if_neg (by omega), if_pos hp]
    simp only [M.bind_apply, decide_eq_true hle', mAssert_true]
    obtain ⟨t, s', e⟩ := readClock_ok hc (⟨r.2, w.mem, w.log ++ [.send d r.1]⟩ : World PLog σ)
    rw [e]
    exact ih _ _ _ _ (by dsimp only; omega) (by omega)

theorem sendData_all {cfg : Cfg} {T : Transport σ} {send : σ → Bytes → Int × σ} (hT : T.send = some send) (hs : SendOk send)
    (hpos : ∀ s d, d ≠ [] → 0 < (send s d).1) {clock : TimeFn σ} (hc : clock ≠ .null) {b len fuel : Nat} {w : World PLog σ}
    (hlen : len ≤ (w.mem b).length) (hf : len ≤ fuel) :
    (HTTPClient_SendHttpData cfg fuel (some T) clock (some b) len w).1 = .ok .success := by
  unfold HTTPClient_SendHttpData
  simp only [hT, M.bind_apply]
  obtain ⟨t, s', e⟩ := readClock_ok hc w
  rw [e]
  exact sendLoop_all hs hpos hc _ b fuel 0 len _ _ (by simpa using hlen) hf

/-- Sending a request that fits succeeds when sending data does. -/
theorem sendRequest_all {clock : TimeFn σ} (hc : clock ≠ .null) {w : World PLog σ}
    (hp : CallPre strict P cfg T send recv rh rb body n resp b w.mem) {fuel : Nat}
    (hfit : (wireHeaders (headerBlock w.mem rh) n flags.toNat).length ≤ rh.bufferLen)
    (hpos : ∀ s d, d ≠ [] → 0 < (send s d).1) (hf1 : rh.bufferLen ≤ fuel) (hf2 : n ≤ fuel) :
    ∃ h', (sendHttpRequest cfg fuel (some T) clock (some rh) body n flags w).1 = .ok (.success, h') := by
  have pre : SendPre cfg T send clock w.mem rh rb := ⟨hp.hasSend, hp.sendOk, hc, ⟨hp.reqBuf, hp.reqRoom⟩, hp.reqLe, hp.reqSize⟩
  have hmax := hp.bodyMax
  have a1 : (body.isSome || decide (n = 0)) = true := by
    cases hb : body with
    | none => simp [hp.bodyNone hb]
    | some bb => simp
  have start : sendHttpRequest cfg fuel (some T) clock (some rh) body n flags w =
      (HTTPClient_SendHttpHeaders cfg fuel (some T) clock (some rh) n flags >>= fun r =>
        if r.1 = .success then
          match body with
          | some b => do
            let st ← sendHttpBody cfg fuel (some T) clock (some b) n
            pure (st, r.2)
          | none => pure r
        else pure r) w := by
    unfold sendHttpRequest
    rw [a1]
    cases clock with
    | null => exact absurd rfl hc
    | zero => rfl
    | user f => rfl
  obtain ⟨h', m', hb, hbl, hle, hfr, hB, hlen, _, e⟩ := sendHeaders_fit (fuel := fuel) pre hmax hfit
  have hml : h'.headersLen ≤ (m' rb).length := by rw [hfr.2.1]; have := hp.reqRoom; omega
  have hd := sendData_all (cfg := cfg) (fuel := fuel) (w := ⟨w.env, m', w.log⟩) hp.hasSend hp.sendOk hpos hc hml (by omega)
  obtain ⟨r, s', t0, evs, e2, tr⟩ := sendData_trace (cfg := cfg) (fuel := fuel) (w := ⟨w.env, m', w.log⟩) pre.transport pre.sendOk
    pre.clockOk hml
  rw [e2] at hd
  dsimp only at hd
  subst hd
  rw [start]
  simp only [M.bind_apply, e, e2, M.pure_apply, if_true]
  cases hbody : body with
  | none => exact ⟨_, rfl⟩
  | some bb =>
    obtain ⟨hbr, hbne⟩ := hp.bodyRoom bb hbody
    have hmb : m' bb = w.mem bb := hfr.1 bb hbne
    have hd2 := sendData_all (cfg := cfg) (fuel := fuel) (b := bb) (len := n) (w := ⟨s', m', w.log ++ .time t0 :: evs⟩) hp.hasSend hp.sendOk hpos hc
      (by dsimp only; rw [hmb]; exact hbr) hf2
    simp only [M.bind_apply, sendHttpBody, pre.transport]
    generalize HTTPClient_SendHttpData cfg fuel (some T) clock (some bb) n ⟨s', m', w.log ++ .time t0 :: evs⟩ = z at hd2
    obtain ⟨r, w2⟩ := z
    dsimp only at hd2
    subst hd2
    exact ⟨_, rfl⟩

end CoreHttp

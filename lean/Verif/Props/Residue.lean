import Verif.Props.Shared
import Verif.Props.ResidueBuild
import Verif.Lemmas.ReadHeaderTop

/-!
# Property C99: nothing depends on what else is in memory

Two calls from states with the same environment whose memories hold the same request header block and the same request body, and may differ in every other byte: in the rest of
the request buffer, in the response buffer and everywhere else. Nothing is assumed about what the memories hold there.
-/

namespace CoreHttp
open Spec
variable {σ π : Type}

/-- The send loop reads nothing but the data it sends. -/
theorem sendLoop_bytes (send : σ → Bytes → Int × σ) (clock : TimeFn σ) (T : UInt32) (b b' : Nat) (fuel : Nat) :
    ∀ (off rem : Nat) (last : UInt32) (w w' : World π σ), w'.env = w.env → off + rem ≤ (w.mem b).length → off + rem ≤ (w'.mem b').length →
      ((w'.mem b').drop off).take rem = ((w.mem b).drop off).take rem →
      ∃ r s evs, sendLoop send clock T b fuel off rem last w = (r, ⟨s, w.mem, w.log ++ evs⟩) ∧
        sendLoop send clock T b' fuel off rem last w' = (r, ⟨s, w'.mem, w'.log ++ evs⟩) := by
  induction fuel with
  | zero =>
    intro off rem last w w' he _ _ _
    unfold sendLoop
    by_cases h0 : rem = 0
    · simp only [if_pos h0]
      exact ⟨.ok .success, w.env, [], by simp, by simp [← he]⟩
    · simp only [if_neg h0]
      exact ⟨.more, w.env, [], by simp, by simp [← he]⟩
  | succ fuel ih =>
    intro off rem last w w' he hl hl' hd
    have hd0 := hd
    unfold sendLoop
    by_cases h0 : rem = 0
    · simp only [if_pos h0]
      exact ⟨.ok .success, w.env, [], by simp, by simp [← he]⟩
    · simp only [if_neg h0]
      simp only [M.bind_apply, M.world_apply, M.ofRun_apply, memRead_ok hl, memRead_ok hl', hd, he, M.setEnv_apply, M.emit_apply]
      generalize ((w.mem b).drop off).take rem = data at hd ⊢
      rcases hsd : send w.env data with ⟨k, s1⟩
      dsimp only
      have clockCase : ∀ (cont cont' : UInt32 → M π σ Status) (D : List (Ev π)) ,
          (∀ t s2, ∃ r s evs, cont t ⟨s2, w.mem, w.log ++ D ++ [.time t]⟩ = (r, ⟨s, w.mem, w.log ++ D ++ [.time t] ++ evs⟩) ∧
            cont' t ⟨s2, w'.mem, w'.log ++ D ++ [.time t]⟩ = (r, ⟨s, w'.mem, w'.log ++ D ++ [.time t] ++ evs⟩)) →
          ∃ r s evs, (readClock clock >>= cont) ⟨s1, w.mem, w.log ++ D⟩ = (r, ⟨s, w.mem, w.log ++ evs⟩) ∧
            (readClock clock >>= cont') ⟨s1, w'.mem, w'.log ++ D⟩ = (r, ⟨s, w'.mem, w'.log ++ evs⟩) := by
        intro cont cont' D hcont
        cases clock with
        | null => exact ⟨_, s1, D, rfl, rfl⟩
        | zero =>
          obtain ⟨r, s, evs, e1, e2⟩ := hcont 0 s1
          refine ⟨r, s, D ++ [.time 0] ++ evs, ?_, ?_⟩
          · simp only [readClock, M.bind_apply, M.emit_apply, M.pure_apply]; rw [e1]; simp
          · simp only [readClock, M.bind_apply, M.emit_apply, M.pure_apply]; rw [e2]; simp
        | user f =>
          obtain ⟨r, s, evs, e1, e2⟩ := hcont (f s1).1 (f s1).2
          refine ⟨r, s, D ++ [.time (f s1).1] ++ evs, ?_, ?_⟩
          · simp only [readClock, M.bind_apply, M.world_apply, M.setEnv_apply, M.emit_apply, M.pure_apply]; rw [e1]; simp
          · simp only [readClock, M.bind_apply, M.world_apply, M.setEnv_apply, M.emit_apply, M.pure_apply]; rw [e2]; simp
      by_cases h1 : k < 0
      · simp only [if_pos h1]
        exact ⟨_, s1, [.send data k], rfl, rfl⟩
      · simp only [if_neg h1]
        by_cases h2 : k > 0
        · simp only [if_pos h2]
          unfold mAssert cAssert
          by_cases h3 : k.toNat ≤ rem
          · simp only [h3, decide_true, if_true, M.ofRun_apply, M.bind_apply]
            have := clockCase (fun now => sendLoop send clock T b fuel (off + k.toNat) (rem - k.toNat) now)
              (fun now => sendLoop send clock T b' fuel (off + k.toNat) (rem - k.toNat) now) [.send data k] ?_
            · simpa only [M.bind_apply] using this
            · intro t s2
              exact ih (off + k.toNat) (rem - k.toNat) t ⟨s2, w.mem, w.log ++ [.send data k] ++ [.time t]⟩ ⟨s2, w'.mem, w'.log ++ [.send data k] ++ [.time t]⟩ rfl
                (by dsimp only; omega) (by dsimp only; omega) (by
                  dsimp only
                  have hd1 := congrArg (fun l => l.drop k.toNat) hd0
                  simpa only [List.drop_take, List.drop_drop] using hd1)
          · simp only [h3, decide_false, Bool.false_eq_true, if_false, M.ofRun_apply, M.bind_apply]
            exact ⟨_, s1, [.send data k], rfl, rfl⟩
        · simp only [if_neg h2]
          have := clockCase (fun now => if now - last ≥ T then pure .networkError else sendLoop send clock T b fuel off rem last)
              (fun now => if now - last ≥ T then pure .networkError else sendLoop send clock T b' fuel off rem last) [.send data k] ?_
          · simpa only [M.bind_apply] using this
          · intro t s2
            by_cases h4 : t - last ≥ T
            · simp only [if_pos h4]
              exact ⟨.ok .networkError, s2, [], by simp, by simp⟩
            · simp only [if_neg h4]
              exact ih off rem last ⟨s2, w.mem, w.log ++ [.send data k] ++ [.time t]⟩ ⟨s2, w'.mem, w'.log ++ [.send data k] ++ [.time t]⟩ rfl hl hl'
                (by dsimp only; exact hd0)

/-- HTTPClient_SendHttpData reads nothing but the data it sends. -/
theorem sendData_bytes {cfg : Cfg} {fuel : Nat} {T : Transport σ} {send : σ → Bytes → Int × σ} (hT : T.send = some send) {clock : TimeFn σ}
    {b b' len : Nat} {w w' : World π σ} (he : w'.env = w.env) (hl : len ≤ (w.mem b).length) (hl' : len ≤ (w'.mem b').length)
    (hd : (w'.mem b').take len = (w.mem b).take len) :
    ∃ r s evs, HTTPClient_SendHttpData cfg fuel (some T) clock (some b) len w = (r, ⟨s, w.mem, w.log ++ evs⟩) ∧
      HTTPClient_SendHttpData cfg fuel (some T) clock (some b') len w' = (r, ⟨s, w'.mem, w'.log ++ evs⟩) := by
  unfold HTTPClient_SendHttpData
  simp only [hT, M.bind_apply]
  have key : ∀ t s2, ∃ r s evs,
      sendLoop send clock (retryTimeout clock cfg.sendTimeoutMs) b fuel 0 len t ⟨s2, w.mem, w.log ++ [.time t]⟩ = (r, ⟨s, w.mem, w.log ++ evs⟩) ∧
      sendLoop send clock (retryTimeout clock cfg.sendTimeoutMs) b' fuel 0 len t ⟨s2, w'.mem, w'.log ++ [.time t]⟩ = (r, ⟨s, w'.mem, w'.log ++ evs⟩) := by
    intro t s2
    obtain ⟨r, s, evs, e1, e2⟩ := sendLoop_bytes send clock (retryTimeout clock cfg.sendTimeoutMs) b b' fuel 0 len t ⟨s2, w.mem, w.log ++ [.time t]⟩
      ⟨s2, w'.mem, w'.log ++ [.time t]⟩ rfl (by simpa using hl) (by simpa using hl') (by simpa using hd)
    exact ⟨r, s, [.time t] ++ evs, by rw [e1]; simp, by rw [e2]; simp⟩
  cases clock with
  | null => exact ⟨_, w.env, [], by simp [readClock]; rfl, by simp [readClock, ← he]⟩
  | zero => simpa only [readClock, M.bind_apply, M.emit_apply, M.pure_apply, he] using key 0 w.env
  | user f => simpa only [readClock, M.bind_apply, M.world_apply, M.setEnv_apply, M.emit_apply, M.pure_apply, he] using key (f w.env).1 (f w.env).2

variable {P : Parser} {cfg : Cfg} {strict : Bool} {T : Transport σ} {send : σ → Bytes → Int × σ} {recv : σ → Nat → Int × Bytes × σ} {resp resp' : Resp σ}
  {rh : ReqHeaders} {b b' rb : Nat} {body : Option Nat} {n : Nat} {flags : UInt32}

/-- The same outcome with another length of the request buffer. -/
def rebuffer (L : Nat) : Run (Status × Option ReqHeaders) → Run (Status × Option ReqHeaders)
  | .ok (st, rh) => .ok (st, rh.map fun h => { h with bufferLen := L })
  | .fault f => .fault f
  | .more => .more

/-- Sending a request reads nothing but the header block and the body. -/
theorem sendRequest_bytes {L : Nat} {clock : TimeFn σ} (hc : clock ≠ .null) {s : σ} {m m' : Mem} {log : List (Ev π)}
    (hp : CallPre strict P cfg T send recv rh rb body n resp b m) (hp' : CallPre strict P cfg T send recv { rh with bufferLen := L } rb body n resp' b' m')
    (hL : (wireHeaders (headerBlock m rh) n flags.toNat).length ≤ rh.bufferLen ↔ (wireHeaders (headerBlock m rh) n flags.toNat).length ≤ L)
    (hreq : headerBlock m' rh = headerBlock m rh) (hbody : bodyOf m' body n = bodyOf m body n) (fuel : Nat) :
    ∃ r s1 m1 m1' evs, sendHttpRequest cfg fuel (some T) clock (some rh) body n flags ⟨s, m, log⟩ = (r, ⟨s1, m1, log ++ evs⟩) ∧
      sendHttpRequest cfg fuel (some T) clock (some { rh with bufferLen := L }) body n flags ⟨s, m', log⟩ = (rebuffer L r, ⟨s1, m1', log ++ evs⟩) := by
  have pre : SendPre cfg T send clock m rh rb := ⟨hp.hasSend, hp.sendOk, hc, ⟨hp.reqBuf, hp.reqRoom⟩, hp.reqLe, hp.reqSize⟩
  have pre' : SendPre cfg T send clock m' { rh with bufferLen := L } rb := ⟨hp'.hasSend, hp'.sendOk, hc, ⟨hp'.reqBuf, hp'.reqRoom⟩, hp'.reqLe, hp'.reqSize⟩
  have hmax := hp.bodyMax
  have a1 : (body.isSome || decide (n = 0)) = true := by
    cases hb : body with
    | none => simp [hp.bodyNone hb]
    | some bb => simp
  have hreq' : headerBlock m' { rh with bufferLen := L } = headerBlock m rh := hreq
  have start : ∀ (rh : ReqHeaders) (w : World π σ), sendHttpRequest cfg fuel (some T) clock (some rh) body n flags w =
      (HTTPClient_SendHttpHeaders cfg fuel (some T) clock (some rh) n flags >>= fun r =>
        if r.1 = .success then
          match body with
          | some b => do
            let st ← sendHttpBody cfg fuel (some T) clock (some b) n
            pure (st, r.2)
          | none => pure r
        else pure r) w := by
    intro rh w
    unfold sendHttpRequest
    rw [a1]
    cases clock with
    | null => exact absurd rfl hc
    | zero => rfl
    | user f => rfl
  rw [start, start]
  by_cases hfit : (wireHeaders (headerBlock m rh) n flags.toNat).length ≤ rh.bufferLen
  · obtain ⟨h', m1, hb, hbl, hle, hfr, hB, hlen, _, e⟩ := sendHeaders_fit (fuel := fuel) (w := ⟨s, m, log⟩) pre hmax hfit
    obtain ⟨h'', m1', hb', hbl', hle', hfr', hB', hlen', _, e'⟩ := sendHeaders_fit (fuel := fuel) (w := ⟨s, m', log⟩) pre' hmax (by dsimp only; rw [hreq']; exact hL.mp hfit)
    dsimp only at hfr hB e hfr' hB' e'
    have hh : h'' = { h' with bufferLen := L } := by
      have h1 : h''.headersLen = h'.headersLen := by rw [hlen', hlen, hB', hB, hreq']
      cases h'; cases h''; simp_all
    subst hh
    dsimp only at hle'
    have hblk : (m1' rb).take h'.headersLen = (m1 rb).take h'.headersLen := by
      have : headerBlock m1' { h' with bufferLen := L } = headerBlock m1 h' := by rw [hB', hB, hreq']
      simpa [headerBlock, hb] using this
    have hml : h'.headersLen ≤ (m1 rb).length := by rw [hfr.2.1]; have := hp.reqRoom; omega
    have hml' : h'.headersLen ≤ (m1' rb).length := by rw [hfr'.2.1]; have := hp'.reqRoom; dsimp only at this; omega
    obtain ⟨r, s1, evs, e1, e1'⟩ := sendData_bytes (cfg := cfg) (fuel := fuel) (clock := clock) hp.hasSend (w := ⟨s, m1, log⟩) (w' := ⟨s, m1', log⟩) rfl hml hml' hblk
    simp only [M.bind_apply, e, e', e1, e1']
    cases r with
    | more => exact ⟨.more, s1, m1, m1', evs, rfl, rfl⟩
    | fault f => exact ⟨.fault f, s1, m1, m1', evs, rfl, rfl⟩
    | ok st =>
      simp only [M.pure_apply]
      by_cases hst : st = .success
      · simp only [if_pos hst]
        cases hbd : body with
        | none => exact ⟨_, s1, m1, m1', evs, rfl, rfl⟩
        | some bb =>
          obtain ⟨hbr, hbne⟩ := hp.bodyRoom bb hbd
          obtain ⟨hbr', _⟩ := hp'.bodyRoom bb hbd
          have q1 : m1 bb = m bb := hfr.1 bb hbne
          have q2 : m1' bb = m' bb := hfr'.1 bb hbne
          rw [hbd] at hbody
          obtain ⟨r2, s2, evs2, e2, e2'⟩ := sendData_bytes (cfg := cfg) (fuel := fuel) (clock := clock) hp.hasSend (b := bb) (b' := bb) (len := n)
            (w := ⟨s1, m1, log ++ evs⟩) (w' := ⟨s1, m1', log ++ evs⟩) rfl (by dsimp only; rw [q1]; exact hbr) (by dsimp only; rw [q2]; exact hbr')
            (by dsimp only; rw [q1, q2]; exact hbody)
          have e3 : ∀ m, sendHttpBody cfg fuel (some T) clock (some bb) n (⟨s1, m, log ++ evs⟩ : World π σ) =
              HTTPClient_SendHttpData cfg fuel (some T) clock (some bb) n ⟨s1, m, log ++ evs⟩ := by
            intro m
            unfold sendHttpBody
            simp only [hp.hasSend]
          simp only [M.bind_apply, e3, e2, e2']
          cases r2 with
          | more => exact ⟨.more, s2, m1, m1', evs ++ evs2, by simp, by simp [rebuffer]⟩
          | fault f => exact ⟨.fault f, s2, m1, m1', evs ++ evs2, by simp, by simp [rebuffer]⟩
          | ok st => exact ⟨.ok (st, some h'), s2, m1, m1', evs ++ evs2, by simp, by simp [rebuffer]⟩
      · simp only [if_neg hst]
        exact ⟨_, s1, m1, m1', evs, rfl, rfl⟩
  · have h1 := sendHeaders_nofit (fuel := fuel) (flags := flags) (w := ⟨s, m, log⟩) pre hmax (by dsimp only; omega)
    have h2 := sendHeaders_nofit (fuel := fuel) (flags := flags) (w := ⟨s, m', log⟩) pre' hmax (by dsimp only; rw [hreq']; omega)
    simp only [M.bind_apply, h1, h2]
    exact ⟨.ok (.insufficientMemory, some rh), s, m, m', [], by simp, by simp [rebuffer]⟩

end CoreHttp

namespace CoreHttp.Props
open CoreHttp Spec
variable {σ : Type} {P : Parser} {cfg : Cfg} {strict : Bool} {T : Transport σ} {send : σ → Bytes → Int × σ} {recv : σ → Nat → Int × Bytes × σ}
  {resp : Resp σ} {rh : ReqHeaders} {b b' rb : Nat} {body : Option Nat} {n : Nat} {flags : UInt32}

/-- Two calls of HTTPClient_Send side by side, from different memories and with request buffers of different lengths. -/
theorem send_pair {L : Nat} {s : σ} {m m' : Mem} {log : List (Ev PLog)} (hp : CallPre strict P cfg T send recv rh rb body n resp b m)
    (hp' : CallPre strict P cfg T send recv { rh with bufferLen := L } rb body n { resp with pBuffer := some b' } b' m')
    (hL : (wireHeaders (headerBlock m rh) n flags.toNat).length ≤ rh.bufferLen ↔ (wireHeaders (headerBlock m rh) n flags.toNat).length ≤ L)
    (hreq : headerBlock m' rh = headerBlock m rh) (hbody : bodyOf m' body n = bodyOf m body n) (hf : RecvFills recv) (fuel : Nat) :
    ∃ r w₁ evs r' w₂ evs', HTTPClient_Send P cfg fuel (some T) (some rh) body n (some resp) flags ⟨s, m, log⟩ = (r, w₁) ∧ w₁.log = log ++ evs ∧
      HTTPClient_Send P cfg fuel (some T) (some { rh with bufferLen := L }) body n (some { resp with pBuffer := some b' }) flags ⟨s, m', log⟩ = (r', w₂) ∧ w₂.log = log ++ evs' ∧
      observable evs' = observable evs ∧ w₂.env = w₁.env ∧
      ((r = .more ∧ r' = .more) ∨
        ∃ st rh' q, r = .ok (st, some rh', some q) ∧ r' = .ok (st, some { rh' with bufferLen := L }, some { q with pBuffer := some b' }) ∧ rh'.bufferLen = rh.bufferLen ∧
          (w₂.mem b').take (received evs).length = (w₁.mem b).take (received evs).length ∧
          (recvs evs ≠ [] → st ≠ .networkError ∨ obsOf evs ≠ [] → bodyBytes w₂.mem { q with pBuffer := some b' } = bodyBytes w₁.mem q) ∧
          (b ≠ rb → b' ≠ rb → headerBlock w₂.mem rh' = headerBlock w₁.mem rh')) := by
  rw [send_eq hp fuel, send_eq hp' fuel]
  have hclock : (withClock { resp with pBuffer := some b' }).getTime = (withClock resp).getTime := rfl
  rw [hclock]
  simp only [M.bind_apply]
  have hs1 := sendRequest_spec (flags := flags) (w := (⟨s, m, log⟩ : World PLog σ)) (withClock_ne resp) hp fuel
  have hs2 := sendRequest_spec (flags := flags) (w := (⟨s, m', log⟩ : World PLog σ)) (withClock_ne resp) hp' fuel
  obtain ⟨ra, sa, ma, ma', eva, ea, ea'⟩ := sendRequest_bytes (flags := flags) (s := s) (log := log) (withClock_ne resp) hp hp' hL hreq hbody fuel
  have hreq' : headerBlock m' { rh with bufferLen := L } = headerBlock m rh := hreq
  dsimp only at hs1 hs2
  rw [hreq', hbody] at hs2
  rcases hs1 with ⟨h1, h2⟩ | ⟨h1, r, s', m1, rh', evs, e, hfr, hb, hbl, hle, hB, hlen, h2⟩
  · have h2' : _ := hs2.resolve_right (fun h => by omega)
    rw [h2, h2'.2]
    exact ⟨_, _, [], _, _, [], rfl, by simp, rfl, by simp, rfl, rfl, .inr ⟨_, rh, withClock resp, rfl, rfl, rfl, by simp [received], fun h => absurd rfl h, fun _ _ => hreq⟩⟩
  · rcases hs2 with ⟨h1', _⟩ | ⟨_, r2, s2', m2, rh2, evs2, e', hfr', hb', hbl', hle', hB', hlen', h2'⟩
    · omega
    have hrh : rh2 = { rh' with bufferLen := L } := by
      have h1 : rh2.headersLen = rh'.headersLen := by rw [hlen', hlen, hB', hB]
      cases rh'; cases rh2; simp_all
    subst hrh
    rw [ea] at e
    rw [ea'] at e'
    rw [ea, ea']
    obtain ⟨rfl, hw⟩ := Prod.mk.inj e
    obtain ⟨rfl, rfl, hlg⟩ := World.mk.inj hw
    obtain ⟨hrr, hw'⟩ := Prod.mk.inj e'
    obtain ⟨_, rfl, hlg'⟩ := World.mk.inj hw'
    obtain rfl := List.append_cancel_left hlg
    have hblk : headerBlock ma' rh' = headerBlock ma rh' := hB'.trans hB.symm
    have hsnd : ∀ all, SendPhase (wireHeaders (headerBlock m rh) n flags.toNat) (bodyOf m body n) eva all → recvs eva = [] ∧ received eva = [] ∧ obsOf eva = [] := by
      intro all h
      have := sending_kinds h.kinds
      exact ⟨this.1, this.2.2.2, sending_obs h.kinds⟩
    rcases h2 with ⟨rfl, h2⟩ | ⟨rfl | rfl, h2⟩
    · -- sent
      dsimp only [rebuffer, Option.map_some]
      rw [if_pos rfl, if_pos rfl]
      have hrp := recvPre_of (flags := flags) (w := (⟨s, m, log⟩ : World PLog σ)) hp hfr hb hbl hle hB hlen
      have hrp' := recvPre_of (flags := flags) (w := (⟨s, m', log⟩ : World PLog σ)) (rh' := { rh' with bufferLen := L }) hp' hfr' hb hbl' hle' (by dsimp only; rw [hreq']; exact hB') hlen'
      have hrp' : RecvPre strict P cfg T recv { withClock resp with pBuffer := some b' } rh' b' rb ma' :=
        ⟨hrp'.parser, hrp'.hasRecv, hrp'.recvOk, hrp'.buf, hrp'.pos, hrp'.room, hrp'.size, hrp'.clock, hrp'.callback, hrp'.reqBuf, hrp'.reqLen, hrp'.reqRoom⟩
      have hhead : startsHead ma' rb = startsHead ma rb := by
        have h := hblk
        unfold headerBlock at h
        rw [hb] at h
        have h := congrArg (List.take 4) h
        simp only [List.take_take] at h
        rw [Nat.min_eq_left (by have := hrp.reqLen; omega)] at h
        unfold startsHead
        rw [h]
      obtain ⟨k, g1, g2⟩ := receive_pair₂ (w := ⟨sa, ma, log ++ eva⟩) (z := ⟨sa, ma', log ++ eva⟩) hrp hrp' rfl rfl hhead hf fuel
      obtain ⟨r₂, w₂, evs₂, e2, hl2, _, _, _, hloc⟩ := C42_locations_inside (w := ⟨sa, ma, log ++ eva⟩) hrp fuel
      obtain ⟨r₄, w₄, evs₄, e4, _, _, hnf, hfr4⟩ := receive_no_send (w := ⟨sa, ma, log ++ eva⟩) hrp fuel
      have hwc : withClock { resp with pBuffer := some b' } = { withClock resp with pBuffer := some b' } := rfl
      rw [hwc]
      obtain ⟨_, _, h3⟩ := hsnd _ h2
      have h4 := hsnd _ h2
      simp only [M.bind_apply]
      have hsame : HTTPClient_ReceiveAndParseHttpResponse P cfg fuel (some T) (some { withClock resp with pBuffer := some b' }) (some { rh' with bufferLen := L }) =
          HTTPClient_ReceiveAndParseHttpResponse P cfg fuel (some T) (some { withClock resp with pBuffer := some b' }) (some rh') := by
        unfold HTTPClient_ReceiveAndParseHttpResponse
        have hini : initializeParsingContext (σ := σ) P (some { rh' with bufferLen := L }) = initializeParsingContext P (some rh') := rfl
        simp only [hp.hasRecv, hini]
      rw [hsame]
      rw [e2] at g1 g2 e4 ⊢
      obtain ⟨rfl, rfl⟩ := Prod.mk.inj e4
      have hl' := g1.log
      obtain ⟨r₃, w₃, evs₃, e3, hl3, _, _, hfr3⟩ := receive_no_send (w := ⟨sa, ma', log ++ eva⟩) hrp' fuel
      rw [e3] at g1 g2 hl' ⊢
      dsimp only at g1 g2 hl' hl2 hl3 hfr3 hfr4 ⊢
      have hobs : observable (eva ++ evs₃) = observable (eva ++ evs₂) := by
        rw [hl2, hl3] at hl'
        simpa using hl'
      cases r₂ with
      | more =>
        cases r₃ <;> simp only [SimRun] at g2
        exact ⟨_, _, eva ++ evs₂, _, _, eva ++ evs₃, rfl, by rw [hl2]; simp, rfl, by rw [hl3]; simp, hobs, g1.env, .inl ⟨rfl, rfl⟩⟩
      | fault f => exact absurd rfl (hnf f)
      | ok x =>
        cases r₃ <;> simp only [SimRun] at g2
        obtain ⟨rfl, hpb, evs₅, hl5, rfl⟩ := g2
        have hev : evs₅ = evs₂ := List.append_cancel_left (hl5.symm.trans hl2)
        subst hev
        refine ⟨_, _, eva ++ evs₅, _, _, eva ++ evs₃, rfl, by rw [hl2]; simp, rfl, by rw [hl3]; simp, hobs, g1.env,
          .inr ⟨x.1, rh', x.2, rfl, rfl, hbl, ?_, ?_, ?_⟩⟩
        · rw [received_append, h4.2.1]; exact g1.blk
        · intro _ hne
          have hob : obsOf (eva ++ evs₅) = obsOf evs₅ := by rw [obsOf_append, h3]; rfl
          rw [hob] at hne
          obtain ⟨_, _, q3, q4, _⟩ := hloc x.1 x.2 rfl hne
          unfold bodyBytes
          rw [hpb]
          dsimp only
          cases hq : x.2.pBody with
          | none => rfl
          | some q =>
            dsimp only
            have := q3 q hq
            refine slice_congr fun i _ hi => ?_
            have hbk := congrArg (·[i]?) g1.blk
            simpa only [List.getElem?_take, if_pos (show i < (received evs₅).length by omega)] using hbk
        · intro h6 h7
          have q1 := hfr4.1 rb (Ne.symm h6)
          have q2 := hfr3.1 rb (Ne.symm h7)
          unfold headerBlock at hblk ⊢
          rw [hb] at hblk ⊢
          dsimp only at hblk ⊢
          rw [q1, q2]; exact hblk
    · dsimp only [rebuffer, Option.map_some]
      rw [if_neg (by decide), if_neg (by decide)]
      obtain ⟨h3, h4, h5⟩ := hsnd _ h2
      exact ⟨_, _, eva, _, _, eva, rfl, rfl, rfl, rfl, rfl, rfl, .inr ⟨_, rh', withClock resp, rfl, rfl, hbl, by rw [h4]; rfl, fun h => absurd h3 h, fun _ _ => hblk⟩⟩
    · obtain ⟨h3, h4, h5⟩ := hsnd _ h2
      exact ⟨_, _, eva, _, _, eva, rfl, rfl, rfl, rfl, rfl, rfl, .inl ⟨rfl, rfl⟩⟩

/-- **C99** (HTTPClient_Send). Two calls from states with the same environment, whose memories hold the same request header block and the same request
body. What the rest of the request buffer, the response buffer (wherever it is) and all other memory hold is arbitrary in both. They behave the same to
the outside, event for event, leave the application in the same state, return the same status, the same request object and the same response object (up
to the buffer address); what was received is the same in both buffers, so is the body, and so is the request's header block when the response
does not go to the request's buffer. -/
theorem C99_send {s : σ} {m m' : Mem} {log : List (Ev PLog)} (hp : CallPre strict P cfg T send recv rh rb body n resp b m)
    (hp' : CallPre strict P cfg T send recv rh rb body n { resp with pBuffer := some b' } b' m')
    (hreq : headerBlock m' rh = headerBlock m rh) (hbody : bodyOf m' body n = bodyOf m body n) (hf : RecvFills recv) (fuel : Nat) :
    ∃ r w₁ evs r' w₂ evs', HTTPClient_Send P cfg fuel (some T) (some rh) body n (some resp) flags ⟨s, m, log⟩ = (r, w₁) ∧ w₁.log = log ++ evs ∧
      HTTPClient_Send P cfg fuel (some T) (some rh) body n (some { resp with pBuffer := some b' }) flags ⟨s, m', log⟩ = (r', w₂) ∧ w₂.log = log ++ evs' ∧
      observable evs' = observable evs ∧ w₂.env = w₁.env ∧
      ((r = .more ∧ r' = .more) ∨
        ∃ st rh' q, r = .ok (st, some rh', some q) ∧ r' = .ok (st, some rh', some { q with pBuffer := some b' }) ∧
          (w₂.mem b').take (received evs).length = (w₁.mem b).take (received evs).length ∧
          (recvs evs ≠ [] → st ≠ .networkError ∨ obsOf evs ≠ [] → bodyBytes w₂.mem { q with pBuffer := some b' } = bodyBytes w₁.mem q) ∧
          (b ≠ rb → b' ≠ rb → headerBlock w₂.mem rh' = headerBlock w₁.mem rh')) := by
  obtain ⟨r, w₁, evs, r', w₂, evs', e1, e2, e3, e4, e5, e6, h⟩ := send_pair (L := rh.bufferLen) hp hp' Iff.rfl hreq hbody hf fuel
  refine ⟨r, w₁, evs, r', w₂, evs', e1, e2, e3, e4, e5, e6, h.imp id ?_⟩
  rintro ⟨st, rh', q, h1, h2, h3, h4⟩
  rw [← h3] at h2
  exact ⟨st, rh', q, h1, h2, h4⟩

/-- **C99** (HTTPClient_SendHttpData). Sending depends on the bytes to send only: whatever the memories hold, wherever the data is, whatever the clock. -/
theorem C99_sendData {fuel : Nat} (hT : T.send = some send) {clock : TimeFn σ} {len : Nat} {s : σ} {m m' : Mem} {log : List (Ev PLog)}
    (hl : len ≤ (m b).length) (hl' : len ≤ (m' b').length) (hd : (m' b').take len = (m b).take len) :
    ∃ r s' evs, HTTPClient_SendHttpData cfg fuel (some T) clock (some b) len ⟨s, m, log⟩ = (r, ⟨s', m, log ++ evs⟩) ∧
      HTTPClient_SendHttpData cfg fuel (some T) clock (some b') len ⟨s, m', log⟩ = (r, ⟨s', m', log ++ evs⟩) :=
  sendData_bytes hT (w := ⟨s, m, log⟩) (w' := ⟨s, m', log⟩) rfl hl hl' hd

/-- **C99** (HTTPClient_ReceiveAndParseHttpResponse). Receiving depends on the request's header block only; the response buffers, in whatever blocks, and all
other memory may hold anything. -/
theorem C99_receive {s : σ} {m m' : Mem} {log : List (Ev PLog)} (hp : RecvPre strict P cfg T recv resp rh b rb m)
    (hp' : RecvPre strict P cfg T recv { resp with pBuffer := some b' } rh b' rb m') (hreq : headerBlock m' rh = headerBlock m rh) (hf : RecvFills recv) (fuel : Nat) :
    ∃ r w₁ evs r' w₂ evs', HTTPClient_ReceiveAndParseHttpResponse P cfg fuel (some T) (some resp) (some rh) ⟨s, m, log⟩ = (r, w₁) ∧ w₁.log = log ++ evs ∧
      HTTPClient_ReceiveAndParseHttpResponse P cfg fuel (some T) (some { resp with pBuffer := some b' }) (some rh) ⟨s, m', log⟩ = (r', w₂) ∧
      w₂.log = log ++ evs' ∧ observable evs' = observable evs ∧ w₂.env = w₁.env ∧
      ((r = .more ∧ r' = .more) ∨
        ∃ st q, r = .ok (st, q) ∧ r' = .ok (st, { q with pBuffer := some b' }) ∧
          (w₂.mem b').take (received evs).length = (w₁.mem b).take (received evs).length) := by
  have hhead : startsHead m' rb = startsHead m rb := by
    have h := hreq
    unfold headerBlock at h
    rw [hp.reqBuf] at h
    have h := congrArg (List.take 4) h
    simp only [List.take_take] at h
    rw [Nat.min_eq_left (by have := hp.reqLen; omega)] at h
    unfold startsHead
    rw [h]
  obtain ⟨k, g1, g2⟩ := receive_pair₂ (w := ⟨s, m, log⟩) (z := ⟨s, m', log⟩) hp hp' rfl rfl hhead hf fuel
  obtain ⟨r, w₁, evs, e, hl, _, hnf, _⟩ := receive_no_send (w := ⟨s, m, log⟩) hp fuel
  obtain ⟨r', w₂, evs', e', hl', _, hnf', _⟩ := receive_no_send (w := ⟨s, m', log⟩) hp' fuel
  rw [e, e'] at g1
  rw [e, e'] at g2
  dsimp only at g1 g2 hl hl'
  refine ⟨r, w₁, evs, r', w₂, evs', e, hl, e', hl', ?_, g1.env, ?_⟩
  · have := g1.log
    rw [hl, hl'] at this
    simpa using this
  cases r with
  | more =>
    cases r' <;> simp only [SimRun] at g2
    exact .inl ⟨rfl, rfl⟩
  | fault f => exact absurd rfl (hnf f)
  | ok x =>
    cases r' <;> simp only [SimRun] at g2
    obtain ⟨rfl, _, evs₅, hl5, rfl⟩ := g2
    have hev : evs₅ = evs := List.append_cancel_left (hl5.symm.trans hl)
    subst hev
    exact .inr ⟨x.1, x.2, rfl, rfl, g1.blk⟩

/-- **C99** (HTTPClient_ReadHeader). Looking up a header depends on the contents of the response buffer only. (On all of it, also behind the response:
see C54.) -/
theorem C99_readHeader {w w' : World PLog σ} {name : Bytes} (hp : ReadPre strict P resp b name w.mem)
    (hp' : ReadPre strict P { resp with pBuffer := some b' } b' name w'.mem)
    (hbuf : (w'.mem b').take resp.bufferLen = (w.mem b).take resp.bufferLen) (l : Option Nat) (n : Nat) :
    ∃ st l' n', (HTTPClient_ReadHeader P (some resp) (some name) (some l) (some n) w).1 = .ok (st, some l', some n') ∧
      (HTTPClient_ReadHeader P (some { resp with pBuffer := some b' }) (some name) (some l) (some n) w').1 = .ok (st, some l', some n') := by
  obtain ⟨st, l1, n1, log1, e, h⟩ := readHeader_run hp l n
  obtain ⟨st', l1', n1', log1', e', h'⟩ := readHeader_run hp' l n
  rw [e, e']
  dsimp only at h h'
  rw [hbuf] at h'
  generalize scan name false (readAll P ((w.mem b).take resp.bufferLen)).1 = sc at h h'
  obtain ⟨ff, o⟩ := sc
  cases o with
  | some o =>
    obtain ⟨rfl, rfl, rfl, _⟩ := h
    obtain ⟨rfl, rfl, rfl, _⟩ := h'
    exact ⟨_, _, _, rfl, rfl⟩
  | none =>
    obtain ⟨rfl, rfl, rfl⟩ := h
    obtain ⟨rfl, rfl, rfl⟩ := h'
    exact ⟨_, _, _, rfl, rfl⟩

/-! ### Non-vacuity -/

/-- Memory with the request and the body of `xMem` and other contents everywhere else: 90 bytes of an old response in the response buffer. -/
def xOld : Mem := fun i => if i = 1 then (ascii "HTTP/1.1 404 Not Found\r\nContent-Length: 400\r\nX-Old: stale\r\n\r\n" ++ List.replicate 300 (65 : UInt8)) else
  if i = 0 then ascii "PUT / HTTP/1.1\r\n\r\n" ++ List.replicate 182 88 else if i = 2 then xMem 2 else List.replicate 7 (i.toUInt8)

/-- The request and its body are the same in both memories, the rest of the request buffer, the response buffer and block 5 are not; both meet the hypotheses. -/
example : CallPre true Ref.httpParser exCfg xT xSend scriptRecv xReq 0 (some 2) 5 { exResp 200 0 with pBuffer := some 1 } 1 xMem ∧
    CallPre true Ref.httpParser exCfg xT xSend scriptRecv xReq 0 (some 2) 5 { exResp 200 0 with pBuffer := some 1 } 1 xOld ∧
    headerBlock xOld xReq = headerBlock xMem xReq ∧ bodyOf xOld (some 2) 5 = bodyOf xMem (some 2) 5 ∧ RecvFills scriptRecv ∧
    xOld 0 ≠ xMem 0 ∧ xOld 1 ≠ xMem 1 ∧ xOld 5 ≠ xMem 5 := by
  have h := xCallPre 1 (.inr rfl)
  refine ⟨h, ⟨h.parser, h.hasSend, h.sendOk, h.hasRecv, h.recvOk, h.reqBuf, h.reqRoom, h.reqLen, h.reqLe, h.reqSize, h.buf, h.pos, by decide +kernel, h.size, h.callback,
    h.bodyNone, (fun bb hb => by cases hb; exact h.bodyRoom 2 rfl), h.bodyMax⟩, by decide +kernel, rfl, scriptRecv_fills, by decide +kernel, by decide +kernel, by decide +kernel⟩

end CoreHttp.Props

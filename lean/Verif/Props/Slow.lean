import Verif.Props.Exchange
import Verif.Spec.Slow

/-! # C103: a slow peer is waited for -/

namespace CoreHttp.Props
open CoreHttp Spec Ref Machine
variable {σ : Type} {cfg : Cfg} {T : Transport σ} {send : σ → Bytes → Int × σ} {recv : σ → Nat → Int × Bytes × σ}
  {resp : Resp σ} {rh : ReqHeaders} {b rb : Nat} {body : Option Nat} {n : Nat} {flags : UInt32} {request answer : Bytes} {got rest : σ → Bytes}
  {now sendDue recvDue : σ → Nat} {f : σ → UInt32 × σ} {sendMs recvMs : Nat}

/-! ### Sending -/

theorem sendLoop_slow {Ts : UInt32} (hs : SendOk send) (hck : ClockOk now f)
    (hP : SlowPeer request answer got rest now sendDue recvDue Ts.toNat recvMs f send recv resp) (b : Nat) :
    ∀ (fuel off rem : Nat) (n0 : Nat) (w : World PLog σ), off + rem ≤ (w.mem b).length → n0 ≤ now w.env → sendDue w.env ≤ n0 + Ts.toNat →
      (sendLoop send (.user f) Ts b fuel off rem (UInt32.ofNat n0) w).1 ≠ .ok .networkError ∧
      sendDue (sendLoop send (.user f) Ts b fuel off rem (UInt32.ofNat n0) w).2.env ≤
        now (sendLoop send (.user f) Ts b fuel off rem (UInt32.ofNat n0) w).2.env + Ts.toNat := by
  intro fuel
  induction fuel with
  | zero =>
    intro off rem n0 w _ h0 h1
    unfold sendLoop
    by_cases hr : rem = 0
    · rw [if_pos hr]; exact ⟨by simp, by simp; omega⟩
    · rw [if_neg hr]; exact ⟨by simp, by simp; omega⟩
  | succ n ih =>
    intro off rem n0 w hlen h0 h1
    unfold sendLoop
    by_cases hr : rem = 0
    · rw [if_pos hr]; exact ⟨by simp, by simp; omega⟩
    rw [if_neg hr]
    generalize hd : ((w.mem b).drop off).take rem = d
    have hdl : d.length = rem := by rw [← hd]; simp; omega
    have hm : memRead (w.mem b) off rem = .ok d := by simp [memRead, hlen, hd]
    have hdne : d ≠ [] := by intro h; rw [h] at hdl; simp at hdl; omega
    simp only [M.bind_apply, M.world_apply, M.ofRun_apply, hm, M.setEnv_apply, M.emit_apply]
    have hle := hs w.env d
    have hne := hP.noError w.env d
    have ht := hP.sendTime w.env d
    have hw := hP.sendWaits w.env d hdne
    have hg := hP.sendGoes w.env d
    generalize send w.env d = r at hle hne ht hw hg
    have hle' : r.1.toNat ≤ rem := by omega
    rw [if_neg (by omega)]
    have hmono := hck.mono r.2
    have hdue := (hP.clock r.2).2.2.1
    by_cases hp : r.1 > 0
    · rw [if_pos hp]
      simp only [M.bind_apply, decide_eq_true hle', mAssert_true]
      simp only [readClock, M.bind_apply, M.world_apply, M.setEnv_apply, M.emit_apply, M.pure_apply]
      rw [hck.reading]
      have := hg hp
      exact ih _ _ (now (f r.2).2) ⟨(f r.2).2, w.mem, _⟩ (by dsimp only; omega) (Nat.le_refl _) (by dsimp only; omega)
    · rw [if_neg hp]
      obtain ⟨g1, g2, _, _⟩ := hw (by omega)
      simp only [M.bind_apply, readClock, M.world_apply, M.setEnv_apply, M.emit_apply, M.pure_apply]
      have hT := Ts.toNat_lt
      have hno : ¬ (f r.2).1 - UInt32.ofNat n0 ≥ Ts := by
        rw [hck.reading]
        intro h
        have := (clock_ge (a := n0) (b := now (f r.2).2) (T := Ts) (by omega) (by omega)).mp h
        omega
      rw [if_neg hno]
      exact ih _ _ n0 ⟨(f r.2).2, w.mem, _⟩ (by dsimp only; omega) (by dsimp only; omega) (by dsimp only; omega)

theorem sendData_slow (hT : T.send = some send) (hs : SendOk send) (hck : ClockOk now f)
    (hP : SlowPeer request answer got rest now sendDue recvDue cfg.sendTimeoutMs.toNat recvMs f send recv resp) {b len fuel : Nat} {w : World PLog σ}
    (hlen : len ≤ (w.mem b).length) (hdue : sendDue w.env ≤ now w.env + cfg.sendTimeoutMs.toNat) :
    (HTTPClient_SendHttpData cfg fuel (some T) (.user f) (some b) len w).1 ≠ .ok .networkError ∧
    sendDue (HTTPClient_SendHttpData cfg fuel (some T) (.user f) (some b) len w).2.env ≤
      now (HTTPClient_SendHttpData cfg fuel (some T) (.user f) (some b) len w).2.env + cfg.sendTimeoutMs.toNat := by
  unfold HTTPClient_SendHttpData
  simp only [hT, M.bind_apply, readClock, M.world_apply, M.setEnv_apply, M.emit_apply, M.pure_apply]
  have hrt : retryTimeout (.user f) cfg.sendTimeoutMs = cfg.sendTimeoutMs := by simp [retryTimeout, TimeFn.isZero]
  rw [hrt, hck.reading]
  have h1 := hck.mono w.env
  have h2 := (hP.clock w.env).2.2.1
  exact sendLoop_slow hs hck hP b fuel 0 len _ ⟨(f w.env).2, w.mem, _⟩ (by simpa using hlen) (Nat.le_refl _) (by dsimp only; omega)

theorem sendRequest_slow {w : World PLog σ} {fuel : Nat}
    (hp : CallPre strict P cfg T send recv rh rb body n resp b w.mem)
    (hfit : (wireHeaders (headerBlock w.mem rh) n flags.toNat).length ≤ rh.bufferLen) (hck : ClockOk now f)
    (hP : SlowPeer request answer got rest now sendDue recvDue cfg.sendTimeoutMs.toNat recvMs f send recv resp)
    (hdue : sendDue w.env ≤ now w.env + cfg.sendTimeoutMs.toNat) :
    ∀ h', (sendHttpRequest cfg fuel (some T) (.user f) (some rh) body n flags w).1 ≠ .ok (.networkError, h') := by
  have pre : SendPre cfg T send (.user f) w.mem rh rb := ⟨hp.hasSend, hp.sendOk, by simp, ⟨hp.reqBuf, hp.reqRoom⟩, hp.reqLe, hp.reqSize⟩
  have hmax := hp.bodyMax
  have a1 : (body.isSome || decide (n = 0)) = true := by
    cases hb : body with
    | none => simp [hp.bodyNone hb]
    | some bb => simp
  have start : sendHttpRequest cfg fuel (some T) (.user f) (some rh) body n flags w =
      (HTTPClient_SendHttpHeaders cfg fuel (some T) (.user f) (some rh) n flags >>= fun r =>
        if r.1 = .success then
          match body with
          | some b => do
            let st ← sendHttpBody cfg fuel (some T) (.user f) (some b) n
            pure (st, r.2)
          | none => pure r
        else pure r) w := by
    unfold sendHttpRequest
    rw [a1]
    rfl
  obtain ⟨h', m', hb, hbl, hle, hfr, hB, hlen, _, e⟩ := sendHeaders_fit (fuel := fuel) pre hmax hfit
  have hml : h'.headersLen ≤ (m' rb).length := by rw [hfr.2.1]; have := hp.reqRoom; omega
  obtain ⟨hd, hd'⟩ := sendData_slow (fuel := fuel) (w := ⟨w.env, m', w.log⟩) hp.hasSend hp.sendOk hck hP hml hdue
  obtain ⟨r, s', t0, evs, e2, tr⟩ := sendData_trace (cfg := cfg) (fuel := fuel) (w := ⟨w.env, m', w.log⟩) pre.transport pre.sendOk
    pre.clockOk hml
  rw [e2] at hd hd'
  dsimp only at hd hd'
  rw [start]
  simp only [M.bind_apply, e, e2]
  rcases tr.outcome with rfl | rfl | rfl
  · simp only [M.pure_apply, if_true]
    cases hbody : body with
    | none => intro h''; simp
    | some bb =>
      obtain ⟨hbr, hbne⟩ := hp.bodyRoom bb hbody
      have hmb : m' bb = w.mem bb := hfr.1 bb hbne
      obtain ⟨hd2, _⟩ := sendData_slow (fuel := fuel) (b := bb) (len := n) (w := ⟨s', m', w.log ++ .time t0 :: evs⟩) hp.hasSend hp.sendOk hck hP
        (by dsimp only; rw [hmb]; exact hbr) hd'
      simp only [M.bind_apply, sendHttpBody, pre.transport]
      generalize HTTPClient_SendHttpData cfg fuel (some T) (.user f) (some bb) n ⟨s', m', w.log ++ .time t0 :: evs⟩ = z at hd2
      obtain ⟨r, w2⟩ := z
      dsimp only at hd2
      intro h''
      cases r with
      | ok st => simp only [M.pure_apply]; intro h; cases h; exact hd2 rfl
      | fault x => simp
      | more => simp
  · exact absurd rfl hd
  · simp

/-- While sending: as `Sending`, and the answer will be there in time. -/
def SendingS (request answer : Bytes) (got rest : σ → Bytes) (now recvDue : σ → Nat) (recvMs : Nat) (l0 : List (Ev PLog)) (s : σ) (l : List (Ev PLog)) : Prop :=
  ∃ evs, l = l0 ++ evs ∧ got s = accepted evs ∧ (accepted evs = request → rest s = answer ∧ recvDue s ≤ now s + recvMs)

theorem sendingS_snoc {l0 l : List (Ev PLog)} {s s' : σ} {e : Ev PLog} (h : SendingS request answer got rest now recvDue recvMs l0 s l)
    (he : accepted [e] = []) (h1 : got s' = got s) (h2 : rest s' = rest s) (h3 : recvDue s' = recvDue s) (h4 : now s ≤ now s') :
    SendingS request answer got rest now recvDue recvMs l0 s' (l ++ [e]) := by
  obtain ⟨evs, rfl, g1, g2⟩ := h
  have ha : accepted (evs ++ [e]) = accepted evs := by rw [accepted_append', he, List.append_nil]
  refine ⟨evs ++ [e], by simp, by rw [ha, h1]; exact g1, ?_⟩
  rw [ha, h2, h3]
  intro h
  exact ⟨(g2 h).1, by have := (g2 h).2; omega⟩

theorem sendingS_inv (hck : ClockOk now f) (hP : SlowPeer request answer got rest now sendDue recvDue sendMs recvMs f send recv resp)
    (l0 : List (Ev PLog)) :
    EnvInv (SendingS request answer got rest now recvDue recvMs l0) send (fun s _ => (0, [], s)) (.user f) resp.pHeaderParsingCallback where
  stored := fun _ _ => Nat.le_refl _
  send := by
    intro s l d hd h
    rcases Int.lt_or_eq_of_le (hP.noError s d) with h0 | h0
    · obtain ⟨evs, rfl, h1, h2⟩ := h
      have ha : accepted (evs ++ [.send d (send s d).1]) = accepted evs ++ d.take (send s d).1.toNat := by
        rw [accepted_append']; simp [accepted]
      refine ⟨evs ++ [.send d (send s d).1], by simp, ?_, ?_⟩
      · rw [ha, hP.takes, h1]
      · rw [ha]; intro h; exact hP.answers s d h0 (by rw [hP.takes, h1]; exact h)
    · obtain ⟨_, _, h3, h4⟩ := hP.sendWaits s d hd h0.symm
      have h5 := hP.takes s d
      rw [← h0] at h5 ⊢
      exact sendingS_snoc h (by simp [accepted]) (by simpa using h5) h4 h3 (hP.sendTime s d)
  recv := fun s l off len h => sendingS_snoc h rfl rfl rfl rfl (Nat.le_refl _)
  zero := fun h => nomatch h
  user := fun f' hf s l h => by
    cases hf
    obtain ⟨h1, h2, _, h4⟩ := hP.clock s
    exact sendingS_snoc h rfl h1 h2 h4 (hck.mono s)
  header := fun c hc s l a f b v code h => by
    obtain ⟨h1, h2, _, h4, h5⟩ := hP.header c hc s a f b v code
    exact sendingS_snoc h rfl h1 h2 h4 h5
  call := fun s l off data h => sendingS_snoc h rfl rfl rfl rfl (Nat.le_refl _)
  event := fun s l e h => sendingS_snoc h rfl rfl rfl rfl (Nat.le_refl _)

/-! ### Receiving -/

/-- Not a clock reading. -/
def notTime : Ev PLog → Prop
  | .time _ => False
  | _ => True

theorem lastRecv_snoc {e : Ev PLog} (he : notTime e) (t0 : UInt32) (a : List (Ev PLog)) : lastRecv t0 (a ++ [e]) = lastRecv t0 a := by
  fun_induction lastRecv t0 a with
  | case1 t0 => cases e <;> simp [lastRecv, notTime] at he ⊢
  | case2 t0 off len ret data t es h ih => simp only [List.cons_append, lastRecv, if_pos h]; exact ih
  | case3 t0 off len ret data t es h ih => simp only [List.cons_append, lastRecv, if_neg h]; exact ih
  | case4 t0 x es h ih =>
    rw [← ih]
    cases x with
    | recv off len ret data =>
      cases es with
      | nil => cases e <;> simp [lastRecv, notTime] at he ⊢
      | cons y ys =>
        cases y with
        | time t => exact absurd rfl (h off len ret data t ys rfl)
        | _ => simp [lastRecv]
    | _ => simp [lastRecv]

theorem lastRecv_pair (t0 : UInt32) (a : List (Ev PLog)) (off len : Nat) (ret : Int) (data : Bytes) (t : UInt32) :
    lastRecv t0 (a ++ [.recv off len ret data, .time t]) = if 0 < ret then t else lastRecv t0 a := by
  fun_induction lastRecv t0 a with
  | case1 t0 => simp [lastRecv]
  | case2 t0 off len ret data t es h ih => simp only [List.cons_append, lastRecv, if_pos h]; exact ih
  | case3 t0 off len ret data t es h ih => simp only [List.cons_append, lastRecv, if_neg h]; exact ih
  | case4 t0 x es h ih =>
    rw [← ih]
    cases x with
    | recv off len ret data =>
      cases es with
      | nil => simp [lastRecv]
      | cons y ys =>
        cases y with
        | time t => exact absurd rfl (h off len ret data t ys rfl)
        | _ => simp [lastRecv]
    | _ => simp [lastRecv]

theorem lastRecv_lone {a : List (Ev PLog)} (ha : ∀ pre off len ret data, a ≠ pre ++ [.recv off len ret data]) (t0 t : UInt32) :
    lastRecv t0 (a ++ [.time t]) = lastRecv t0 a := by
  fun_induction lastRecv t0 a with
  | case1 t0 => simp [lastRecv]
  | case2 t0 off len ret data t1 es h ih =>
    simp only [List.cons_append, lastRecv, if_pos h]
    exact ih fun pre off' len' ret' data' h' => ha (.recv off len ret data :: .time t1 :: pre) off' len' ret' data' (by rw [h']; rfl)
  | case3 t0 off len ret data t1 es h ih =>
    simp only [List.cons_append, lastRecv, if_neg h]
    exact ih fun pre off' len' ret' data' h' => ha (.recv off len ret data :: .time t1 :: pre) off' len' ret' data' (by rw [h']; rfl)
  | case4 t0 x es h ih =>
    rw [← ih fun pre off' len' ret' data' h' => ha (x :: pre) off' len' ret' data' (by rw [h']; rfl)]
    cases x with
    | recv off len ret data =>
      cases es with
      | nil => exact absurd rfl (ha [] off len ret data)
      | cons y ys =>
        cases y with
        | time t => exact absurd rfl (h off len ret data t ys rfl)
        | _ => simp [lastRecv]
    | _ => simp [lastRecv]

/-- Receive calls are for at least one byte, and followed by a clock reading. -/
def Paired (evs : List (Ev PLog)) : Prop :=
  ∀ pre off len ret data post, evs = pre ++ .recv off len ret data :: post → 0 < len ∧ (post = [] ∨ ∃ t post', post = .time t :: post')

theorem Paired.init {evs : List (Ev PLog)} {x : Ev PLog} (h : Paired (evs ++ [x])) : Paired evs := by
  intro pre off len ret data post e
  obtain ⟨h1, h2⟩ := h pre off len ret data (post ++ [x]) (by rw [e]; simp)
  refine ⟨h1, ?_⟩
  cases post with
  | nil => exact .inl rfl
  | cons y ys =>
    rcases h2 with h2 | ⟨t, post', h2⟩
    · cases h2
    · cases h2; exact .inr ⟨_, _, rfl⟩

theorem Paired.recv_time {evs pre : List (Ev PLog)} {off len : Nat} {ret : Int} {data : Bytes} {x : Ev PLog} (h : Paired (evs ++ [x]))
    (e : evs = pre ++ [.recv off len ret data]) : ∃ t, x = .time t := by
  obtain ⟨_, h2⟩ := h pre off len ret data [x] (by rw [e]; simp)
  rcases h2 with h2 | ⟨t, post', h2⟩
  · cases h2
  · cases h2; exact ⟨t, rfl⟩

/-- What is known about the time while receiving, after the events `evs` since the first clock reading `t0`. -/
structure Timely (answer : Bytes) (rest : σ → Bytes) (now recvDue : σ → Nat) (f : σ → UInt32 × σ) (Tr : UInt32) (t0 : UInt32) (s : σ) (evs : List (Ev PLog)) :
    Prop where
  all : received evs ++ rest s = answer
  /-- between a receive call that delivered something and the clock reading after it -/
  fresh : ∀ pre off len ret data, evs = pre ++ [.recv off len ret data] → 0 ≤ ret ∧ (0 < ret → recvDue s ≤ now s + Tr.toNat)
  /-- after a receive call that delivered nothing, before the clock reading after it -/
  waits : ∀ pre off len data, evs = pre ++ [.recv off len 0 data] → data = [] ∧ (received pre = answer ∨ now (f s).2 < recvDue s)
  last : (∃ pre off len ret data, evs = pre ++ [.recv off len ret data] ∧ 0 < ret) ∨ rest s = [] ∨
    ∃ n0, lastRecv t0 evs = UInt32.ofNat n0 ∧ n0 ≤ now s ∧ recvDue s ≤ n0 + Tr.toNat
  ok : ∀ pre off len data t post, evs = pre ++ .recv off len 0 data :: .time t :: post → received pre = answer ∨ ¬ Tr ≤ t - lastRecv t0 pre

theorem snoc_inj {α : Type} {a c : List α} {x y : α} (h : a ++ [x] = c ++ [y]) : a = c ∧ x = y := by
  have := List.append_inj' h rfl
  exact ⟨this.1, by simpa using this.2⟩

theorem snoc_pair {evs pre post : List (Ev PLog)} {x e1 e2 : Ev PLog} (h : evs ++ [x] = pre ++ e1 :: e2 :: post) :
    (∃ post', evs = pre ++ e1 :: e2 :: post' ∧ post = post' ++ [x]) ∨ (evs = pre ++ [e1] ∧ x = e2 ∧ post = []) := by
  rcases List.eq_nil_or_concat post with rfl | ⟨post', y, rfl⟩
  · right
    have h' : evs ++ [x] = (pre ++ [e1]) ++ [e2] := by rw [h]; simp
    exact ⟨(snoc_inj h').1, (snoc_inj h').2, rfl⟩
  · left
    have h' : evs ++ [x] = (pre ++ e1 :: e2 :: post') ++ [y] := by rw [h]; simp
    obtain ⟨h1, rfl⟩ := snoc_inj h'
    exact ⟨post', h1, by simp⟩

theorem Timely.other {Tr t0 : UInt32} {s s' : σ} {evs : List (Ev PLog)} {x : Ev PLog} (h : Timely answer rest now recvDue f Tr t0 s evs)
    (hp : Paired (evs ++ [x])) (hx : ∀ off len ret data, x ≠ .recv off len ret data) (hx' : notTime x) (h1 : rest s' = rest s)
    (h2 : recvDue s' = recvDue s) (h3 : now s ≤ now s') : Timely answer rest now recvDue f Tr t0 s' (evs ++ [x]) where
  all := by
    have h0 : received [x] = [] := by
      cases x with
      | recv off len ret data => exact absurd rfl (hx off len ret data)
      | _ => rfl
    rw [received_append, h0, List.append_nil, h1]; exact h.all
  fresh := fun pre off len ret data e => absurd (snoc_inj e).2 (hx off len ret data)
  waits := fun pre off len data e => absurd (snoc_inj e).2 (hx off len 0 data)
  last := by
    rcases h.last with ⟨pre, off, len, ret, data, e, _⟩ | h4 | ⟨n0, h4, h5, h6⟩
    · obtain ⟨t, rfl⟩ := hp.recv_time e
      exact absurd hx' (by simp [notTime])
    · exact .inr (.inl (by rw [h1]; exact h4))
    · exact .inr (.inr ⟨n0, by rw [lastRecv_snoc hx']; exact h4, by omega, by omega⟩)
  ok := by
    intro pre off len data t post e
    rcases snoc_pair e with ⟨post', e', _⟩ | ⟨_, rfl, _⟩
    · exact h.ok _ _ _ _ _ _ e'
    · exact absurd hx' (by simp [notTime])

theorem timely_recv {Tr t0 : UInt32} {s : σ} {evs : List (Ev PLog)} (h : Timely answer rest now recvDue f Tr t0 s evs)
    (hP : SlowPeer request answer got rest now sendDue recvDue sendMs Tr.toNat f send recv resp) {off len : Nat}
    (hp : Paired (evs ++ [.recv off len (recv s len).1 ((recv s len).2.1.take (recv s len).1.toNat)])) :
    Timely answer rest now recvDue f Tr t0 (recv s len).2.2 (evs ++ [.recv off len (recv s len).1 ((recv s len).2.1.take (recv s len).1.toNat)]) := by
  have hlen : 0 < len := (hp evs _ _ _ _ [] rfl).1
  obtain ⟨d1, d2⟩ := hP.delivers s len
  have hw := hP.recvWaits s len hlen
  have hg := hP.recvGoes s len
  have ht := hP.recvTime s len
  generalize recv s len = r at d1 d2 hw hg ht hp ⊢
  rw [show r.1.toNat = r.2.1.length by omega, List.take_length] at hp ⊢
  have hlast : rest s = [] ∨ ∃ n0, lastRecv t0 evs = UInt32.ofNat n0 ∧ n0 ≤ now s ∧ recvDue s ≤ n0 + Tr.toNat := by
    rcases h.last with ⟨pre, off, len, ret, data, e, _⟩ | h4
    · obtain ⟨t, ht⟩ := hp.recv_time e
      cases ht
    · exact h4
  refine ⟨?_, ?_, ?_, ?_, ?_⟩
  · rw [received_append]
    simp only [received, List.append_nil]
    rw [List.append_assoc, d2]; exact h.all
  · intro pre off' len' ret data e
    obtain ⟨_, e⟩ := snoc_inj e
    cases e
    exact ⟨by omega, fun h0 => hg (by intro h1; rw [h1] at d1; simp at d1; omega)⟩
  · intro pre off' len' data e
    obtain ⟨e1, e2⟩ := snoc_inj e
    subst e1
    simp only [Ev.recv.injEq] at e2
    obtain ⟨_, _, hr0, rfl⟩ := e2
    have hnil : r.2.1 = [] := List.eq_nil_of_length_eq_zero (by omega)
    refine ⟨hnil, ?_⟩
    by_cases h0 : rest s = []
    · left; have := h.all; rw [h0, List.append_nil] at this; exact this
    · right
      obtain ⟨h1, h2⟩ := hw h0 hnil
      omega
  · by_cases h0 : 0 < r.1
    · exact .inl ⟨evs, _, _, _, _, rfl, h0⟩
    · have hnil : r.2.1 = [] := List.eq_nil_of_length_eq_zero (by omega)
      right
      rw [hnil, List.nil_append] at d2
      by_cases h0 : rest s = []
      · exact .inl (by rw [d2]; exact h0)
      · right
        obtain ⟨h1, h2⟩ := hw h0 hnil
        rcases hlast with h3 | ⟨n0, h3, h4, h5⟩
        · exact absurd h3 h0
        · exact ⟨n0, by rw [lastRecv_snoc (by simp [notTime])]; exact h3, by omega, by omega⟩
  · intro pre off' len' data t post e
    rcases snoc_pair e with ⟨post', e', _⟩ | ⟨_, e', _⟩
    · exact h.ok _ _ _ _ _ _ e'
    · cases e'

theorem Timely.time {Tr t0 : UInt32} {s : σ} {evs : List (Ev PLog)} (h : Timely answer rest now recvDue f Tr t0 s evs) (hck : ClockOk now f)
    (hP : SlowPeer request answer got rest now sendDue recvDue sendMs Tr.toNat f send recv resp) :
    Timely answer rest now recvDue f Tr t0 (f s).2 (evs ++ [.time (f s).1]) := by
  obtain ⟨_, c2, _, c4⟩ := hP.clock s
  have hm := hck.mono s
  have hr := hck.reading s
  have hTr := Tr.toNat_lt
  refine ⟨?_, ?_, ?_, ?_, ?_⟩
  · rw [received_append, show received [Ev.time (f s).1] = [] from rfl, List.append_nil, c2]; exact h.all
  · intro pre off len ret data e
    cases (snoc_inj e).2
  · intro pre off len data e
    cases (snoc_inj e).2
  · right
    by_cases hends : ∃ pre off len ret data, evs = pre ++ [.recv off len ret data]
    · obtain ⟨pre, off, len, ret, data, e⟩ := hends
      obtain ⟨f1, f2⟩ := h.fresh _ _ _ _ _ e
      by_cases hpos : 0 < ret
      · right
        refine ⟨now (f s).2, ?_, Nat.le_refl _, by have := f2 hpos; omega⟩
        rw [e, List.append_assoc]
        show lastRecv t0 (pre ++ [.recv off len ret data, .time (f s).1]) = _
        rw [lastRecv_pair, if_pos hpos, hr]
      · rcases h.last with ⟨pre', off', len', ret', data', e', h'⟩ | h4 | ⟨n0, h4, h5, h6⟩
        · rw [e] at e'
          cases (snoc_inj e').2
          exact absurd h' hpos
        · exact .inl (by rw [c2]; exact h4)
        · right
          refine ⟨n0, ?_, by omega, by omega⟩
          rw [e, lastRecv_snoc (by simp [notTime])] at h4
          rw [e, List.append_assoc]
          show lastRecv t0 (pre ++ [.recv off len ret data, .time (f s).1]) = _
          rw [lastRecv_pair, if_neg hpos]; exact h4
    · rcases h.last with ⟨pre', off', len', ret', data', e', h'⟩ | h4 | ⟨n0, h4, h5, h6⟩
      · exact absurd ⟨_, _, _, _, _, e'⟩ hends
      · exact .inl (by rw [c2]; exact h4)
      · right
        refine ⟨n0, ?_, by omega, by omega⟩
        rw [lastRecv_lone fun pre off len ret data e => hends ⟨_, _, _, _, _, e⟩]
        exact h4
  · intro pre off len data t post e
    rcases snoc_pair e with ⟨post', e', _⟩ | ⟨e', ht, _⟩
    · exact h.ok _ _ _ _ _ _ e'
    · cases ht
      obtain ⟨w1, w2⟩ := h.waits _ _ _ _ e'
      rcases w2 with w2 | w2
      · exact .inl w2
      · rcases h.last with ⟨pre', off', len', ret', data', e'', h'⟩ | h4 | ⟨n0, h4, h5, h6⟩
        · rw [e'] at e''
          cases (snoc_inj e'').2
          exact absurd h' (by decide)
        · left
          have := h.all
          rw [h4, e', received_append, w1] at this
          simpa [received] using this
        · right
          rw [e', lastRecv_snoc (by simp [notTime])] at h4
          rw [h4, hr]
          intro hle
          have := (clock_ge (a := n0) (b := now (f s).2) (T := Tr) (by omega) (by omega)).mp hle
          omega

/-- The invariant of receiving. -/
def ReceivingS (answer : Bytes) (rest : σ → Bytes) (now recvDue : σ → Nat) (f : σ → UInt32 × σ) (Tr : UInt32) (l0 : List (Ev PLog)) (s : σ)
    (l : List (Ev PLog)) : Prop :=
  ∃ evs, l = l0 ++ evs ∧ (evs = [] → rest s = answer ∧ recvDue s ≤ now s + Tr.toNat) ∧
    ∀ t0 es, evs = .time t0 :: es → Paired es → Timely answer rest now recvDue f Tr t0 s es

theorem receivingS_snoc {Tr : UInt32} {l0 l : List (Ev PLog)} {s s' : σ} {x : Ev PLog} (h : ReceivingS answer rest now recvDue f Tr l0 s l)
    (h0 : rest s = answer ∧ recvDue s ≤ now s + Tr.toNat → ∀ t0, x = .time t0 → Timely answer rest now recvDue f Tr t0 s' [])
    (h1 : ∀ t0 es, Timely answer rest now recvDue f Tr t0 s es → Paired (es ++ [x]) → Timely answer rest now recvDue f Tr t0 s' (es ++ [x])) :
    ReceivingS answer rest now recvDue f Tr l0 s' (l ++ [x]) := by
  obtain ⟨evs, rfl, g0, g1⟩ := h
  refine ⟨evs ++ [x], by simp, fun h => absurd h (by simp), ?_⟩
  intro t0 es e hp
  cases evs with
  | nil =>
    simp only [List.nil_append, List.cons.injEq] at e
    obtain ⟨rfl, rfl⟩ := e
    exact h0 (g0 rfl) t0 rfl
  | cons y ys =>
    simp only [List.cons_append, List.cons.injEq] at e
    obtain ⟨rfl, rfl⟩ := e
    exact h1 t0 ys (g1 t0 ys rfl hp.init) hp

theorem receivingS_inv {Tr : UInt32} (hck : ClockOk now f)
    (hP : SlowPeer request answer got rest now sendDue recvDue sendMs Tr.toNat f send recv resp) (l0 : List (Ev PLog)) :
    EnvInv (ReceivingS answer rest now recvDue f Tr l0) (fun s _ => (0, s)) recv (.user f) resp.pHeaderParsingCallback where
  stored := fun s len => by rw [(hP.delivers s len).1]; omega
  send := fun s l d _ h => receivingS_snoc h (fun _ t0 h => nomatch h) fun t0 es h hp =>
    h.other hp (fun _ _ _ _ h => nomatch h) trivial rfl rfl (Nat.le_refl _)
  recv := fun s l off len h => receivingS_snoc h (fun _ t0 h => nomatch h) fun t0 es h hp => timely_recv h hP hp
  zero := fun h => nomatch h
  user := fun f' hf s l h => by
    cases hf
    refine receivingS_snoc h (fun h0 t0 ht => ?_) fun t0 es h hp => h.time hck hP
    cases ht
    obtain ⟨_, c2, _, c4⟩ := hP.clock s
    have hm := hck.mono s
    exact
      { all := by rw [c2]; exact h0.1
        fresh := fun pre off len ret data e => by cases pre <;> cases e
        waits := fun pre off len data e => by cases pre <;> cases e
        last := .inr (.inr ⟨now (f s).2, hck.reading s, Nat.le_refl _, by have := h0.2; omega⟩)
        ok := fun pre off len data t post e => by cases pre <;> cases e }
  header := fun c hc s l a x b v code h => by
    obtain ⟨_, h2, _, h4, h5⟩ := hP.header c hc s a x b v code
    exact receivingS_snoc h (fun _ t0 h => nomatch h) fun t0 es h hp => h.other hp (fun _ _ _ _ h => nomatch h) trivial h2 h4 h5
  call := fun s l off data h => receivingS_snoc h (fun _ t0 h => nomatch h) fun t0 es h hp =>
    h.other hp (fun _ _ _ _ h => nomatch h) trivial rfl rfl (Nat.le_refl _)
  event := fun s l e h => receivingS_snoc h (fun _ t0 h => nomatch h) fun t0 es h hp =>
    h.other hp (fun _ _ _ _ h => nomatch h) trivial rfl rfl (Nat.le_refl _)

/-- What is delivered is the answer. -/
def DeliveringS (request answer : Bytes) (got rest : σ → Bytes) (l0 : List (Ev PLog)) (s : σ) (l : List (Ev PLog)) : Prop :=
  ∃ evs, l = l0 ++ evs ∧ got s = request ∧ received evs ++ rest s = answer ∧
    ∀ pre off len ret data post, evs = pre ++ .recv off len ret data :: post → 0 ≤ ret ∧ received pre ++ data <+: answer

theorem deliveringS_snoc {l0 l : List (Ev PLog)} {s s' : σ} {e : Ev PLog} (h : DeliveringS request answer got rest l0 s l)
    (he : ∀ off len ret data, e ≠ .recv off len ret data) (h1 : got s' = got s) (h2 : rest s' = rest s) :
    DeliveringS request answer got rest l0 s' (l ++ [e]) := by
  obtain ⟨evs, rfl, g1, g2, g3⟩ := h
  have hr : received (evs ++ [e]) = received evs := by
    rw [received_append]
    cases e with
    | recv off len ret data => exact absurd rfl (he off len ret data)
    | _ => simp [received]
  refine ⟨evs ++ [e], by simp, by rw [h1]; exact g1, by rw [hr, h2]; exact g2, ?_⟩
  intro pre off len ret data post h
  rcases split_append h with ⟨post', h3, _⟩ | ⟨pre', rfl, h3⟩
  · exact g3 _ _ _ _ _ _ h3
  · cases pre' with
    | nil => simp at h3; exact absurd h3.1 (he _ _ _ _)
    | cons x xs => simp at h3

theorem deliveringS_inv (hP : SlowPeer request answer got rest now sendDue recvDue sendMs recvMs f send recv resp) (l0 : List (Ev PLog)) :
    EnvInv (DeliveringS request answer got rest l0) (fun s _ => (0, s)) recv (.user f) resp.pHeaderParsingCallback where
  stored := fun s len => by rw [(hP.delivers s len).1]; omega
  send := fun s l d _ h => deliveringS_snoc h (by simp) rfl rfl
  recv := by
    rintro s l off len ⟨evs, rfl, g1, g2, g3⟩
    obtain ⟨d1, d2⟩ := hP.delivers s len
    have hk := hP.keeps s len
    generalize recv s len = r at d1 d2 hk
    rw [show r.1.toNat = r.2.1.length by omega, List.take_length]
    refine ⟨evs ++ [.recv off len r.1 r.2.1], by simp, by rw [hk]; exact g1, ?_, ?_⟩
    · rw [received_append]
      simp only [received, List.append_nil]
      rw [List.append_assoc, d2]; exact g2
    · intro pre off' len' ret data post h
      rcases split_append h with ⟨post', h3, _⟩ | ⟨pre', rfl, h3⟩
      · exact g3 _ _ _ _ _ _ h3
      · cases pre' with
        | cons x xs => simp at h3
        | nil =>
          simp only [List.nil_append, List.cons.injEq, Ev.recv.injEq] at h3
          obtain ⟨⟨rfl, rfl, rfl, rfl⟩, rfl⟩ := h3
          simp only [List.append_nil]
          exact ⟨by omega, ⟨rest r.2.2, by rw [List.append_assoc, d2]; exact g2⟩⟩
  zero := fun h => nomatch h
  user := fun f' hf s l h => by cases hf; exact deliveringS_snoc h (by simp) (hP.clock s).1 (hP.clock s).2.1
  header := fun c hc s l a f b v code h => deliveringS_snoc h (by simp) (hP.header c hc s a f b v code).1 (hP.header c hc s a f b v code).2.1
  call := fun s l off data h => deliveringS_snoc h (by simp) rfl rfl
  event := fun s l e h => deliveringS_snoc h (by simp) rfl rfl

/-- **C103, receiving.** -/
theorem C103_slow_receive {w : World PLog σ} {head : Bool} {r : Response} (hp : RecvPre true httpParser cfg T recv resp rh b rb w.mem)
    (ok : r.Ok head) (hreq : ReqIs head (headerBlock w.mem rh)) (hflag : ¬ headersOnly resp.respOptionFlags)
    (hfit : r.bytes.length ≤ resp.bufferLen) (hc : resp.getTime = .user f) (hck : ClockOk now f)
    (hP : SlowPeer request r.bytes got rest now sendDue recvDue sendMs cfg.recvTimeoutMs.toNat f send recv resp) (hgot : got w.env = request)
    (hrest : rest w.env = r.bytes) (hdue : recvDue w.env ≤ now w.env + cfg.recvTimeoutMs.toNat) {fuel : Nat} {res : Run (Status × Resp σ)} {w' : World PLog σ}
    (e : HTTPClient_ReceiveAndParseHttpResponse httpParser cfg fuel (some T) (some resp) (some rh) w = (res, w')) (hm : res ≠ .more) :
    ∃ resp' evs, res = .ok (.success, resp') ∧
      w'.log = w.log ++ evs ∧ received evs = r.bytes ∧ rest w'.env = [] ∧ got w'.env = request ∧
      Got cfg r resp.pHeaderParsingCallback.isSome evs w'.mem resp' := by
  obtain ⟨_, _, t0, evs, e1, hl, h58⟩ := C58_round_trip_receive hp ok hreq hflag hfit fuel
  rw [e] at e1; cases e1
  have hI1 := deliveringS_inv hP w.log
  have hI2 := receivingS_inv hck hP w.log
  rw [← hc] at hI1 hI2
  have hk1 := (receive_keeps httpParser cfg hp.hasRecv hI1 rh fuel w
    ⟨[], by simp, hgot, by simpa [received] using hrest, by intro pre off len ret data post h; cases pre <;> cases h⟩).1
  have hk2 := (receive_keeps httpParser cfg hp.hasRecv hI2 rh fuel w
    ⟨[], by simp, fun _ => ⟨hrest, hdue⟩, fun _ _ h => nomatch h⟩).1
  rw [e] at hk1 hk2
  obtain ⟨evs', hl', g1, g2, g3⟩ := hk1
  obtain rfl : Ev.time t0 :: evs = evs' := List.append_cancel_left (hl.symm.trans hl')
  obtain ⟨evs', hl', _, k2⟩ := hk2
  obtain rfl : Ev.time t0 :: evs = evs' := List.append_cancel_left (hl.symm.trans hl')
  have hnf : ∀ f, res ≠ .fault f := by
    obtain ⟨_, _, _, e1, _, _, h1, _⟩ := receive_no_send hp fuel
    rw [e] at e1; cases e1
    exact h1
  have hpair : Paired evs := by
    intro pre off len ret data post he
    obtain ⟨_, _, evs1, e1, l1, h29, _⟩ := C29_receive_contiguous hp fuel
    rw [e] at e1; cases e1
    obtain rfl : Ev.time t0 :: evs = evs1 := List.append_cancel_left (hl.symm.trans l1)
    refine ⟨(h29 (.time t0 :: pre) off len ret data post (by rw [he]; rfl)).2.2.1, ?_⟩
    obtain ⟨_, _, t1, tr, e1, l1, _, _, h4⟩ := receive_spec hp fuel
    rw [e] at e1; cases e1
    obtain ⟨ht, hev⟩ := List.cons.inj (List.append_cancel_left (hl.symm.trans l1))
    cases ht; cases hev
    have : ∃ o, RecvTrace (retryTimeout resp.getTime cfg.recvTimeoutMs) resp.bufferLen [.time t0] t0 evs o := by
      rcases h4 with ⟨_, h4⟩ | ⟨lst, _, _, _, _, _, h4, _⟩
      · exact ⟨_, h4⟩
      · exact ⟨_, h4⟩
    obtain ⟨o, h4⟩ := this
    rcases h4.recv_split _ _ _ _ _ _ he with ⟨_, h5, _⟩ | ⟨_, t, _, _, _, _, h5, _⟩ | ⟨_, t, _, h5, _⟩
    · exact .inl h5
    · exact .inr ⟨_, _, h5⟩
    · exact .inr ⟨_, _, h5⟩
  have ht := k2 t0 evs rfl hpair
  rcases res with ⟨st, resp'⟩ | f' | _
  · have hdel : Delivers r.bytes evs := by
      intro pre off len ret data post he
      exact g3 (.time t0 :: pre) off len ret data post (by rw [he]; rfl)
    rcases h58 hdel _ _ rfl with ⟨rfl, h1, h2⟩ | ⟨_, hnall, pre, off, len, t, post, h1, h2, h3⟩
    · refine ⟨resp', _, rfl, hl, h1, ?_, g1, { h2 with reported := h2.reported }⟩
      have : received (Ev.time t0 :: evs) = r.bytes := h1
      rw [this] at g2
      exact List.append_right_eq_self.mp g2
    · exfalso
      have hz : resp.getTime.isZero = false := by rw [hc]; rfl
      rcases ht.ok _ _ _ _ _ _ h1 with h4 | h4
      · apply hnall
        have h5 := delivers_prefix evs hdel
        obtain ⟨u, hu⟩ := h5
        have h6 : received evs = received pre ++ received (.recv off len 0 [] :: .time t :: post)  :=
          (congrArg received h1).trans (received_append _ _)
        rw [h6, h4, List.append_assoc] at hu
        have := List.append_right_eq_self.mp hu
        rw [h6, h4, (List.append_eq_nil_iff.mp this).1, List.append_nil]
      · rcases h3 with h3 | h3
        · rw [hz] at h3; cases h3
        · exact h4 h3
  · exact absurd rfl (hnf f')
  · exact absurd rfl hm

/-- **C103.** A slow peer is waited for. For every request that fits in its buffer, every well-formed response to it that fits in the response buffer, and
every peer that accepts the request and delivers this response, in pieces of any size: send and receive calls may accept or deliver nothing as often as they
like, as long as the peer never lets a retry timeout pass without accepting or delivering something. Then HTTPClient_Send returns HTTPSuccess, the peer
has got exactly the request, and everything is reported as the peer sent it. The clock may wrap around at any time. (`fuel` bounds the number
of transport calls; a fruitless call takes at least 1 ms.) -/
theorem C103_slow_exchange {w : World PLog σ} {head : Bool} {r : Response}
    (hp : CallPre true httpParser cfg T send recv rh rb body n resp b w.mem)
    (ok : r.Ok head) (hreq : ReqIs head (headerBlock w.mem rh)) (hflag : ¬ headersOnly resp.respOptionFlags)
    (hfit : r.bytes.length ≤ resp.bufferLen) (hfit' : (wireHeaders (headerBlock w.mem rh) n flags.toNat).length ≤ rh.bufferLen)
    (hc : resp.getTime = .user f) (hck : ClockOk now f)
    (hP : SlowPeer (wireRequest w.mem rh body n flags) r.bytes got rest now sendDue recvDue cfg.sendTimeoutMs.toNat cfg.recvTimeoutMs.toNat f send recv resp)
    (hgot : got w.env = []) (hdue : sendDue w.env ≤ now w.env + cfg.sendTimeoutMs.toNat)
    (hst : SendTakesTime now f send (4294967296 - cfg.sendTimeoutMs.toNat))
    (hrt : RecvTakesTime now f recv (4294967296 - cfg.recvTimeoutMs.toNat)) {fuel : Nat}
    (hf1 : rh.bufferLen * (cfg.sendTimeoutMs.toNat + 1) + cfg.sendTimeoutMs.toNat + 1 ≤ fuel)
    (hf2 : n * (cfg.sendTimeoutMs.toNat + 1) + cfg.sendTimeoutMs.toNat + 1 ≤ fuel)
    (hf3 : resp.bufferLen * (cfg.recvTimeoutMs.toNat + 2) + cfg.recvTimeoutMs.toNat + 2 ≤ fuel) :
    ∃ rh' resp' w' evs, HTTPClient_Send httpParser cfg fuel (some T) (some rh) body n (some resp) flags w = (.ok (.success, some rh', some resp'), w') ∧
      w'.log = w.log ++ evs ∧ got w'.env = wireRequest w.mem rh body n flags ∧ rest w'.env = [] ∧
      accepted evs = wireRequest w.mem rh body n flags ∧ received evs = r.bytes ∧
      Got cfg r resp.pHeaderParsingCallback.isSome evs w'.mem resp' := by
  have hblk : 16 ≤ (headerBlock w.mem rh).length := by
    have h1 := hp.reqLen; have h2 := hp.reqRoom; have h3 := hp.reqLe
    unfold headerBlock; rw [hp.reqBuf]; simp only [List.length_take]; omega
  have hwc : withClock resp = resp := by unfold withClock; rw [hc]; dsimp only; rw [← hc]
  have hwr : wireRequest w.mem rh body n flags ≠ [] := by
    intro h
    have h1 := congrArg List.length (wireHeaders_take hblk n flags.toNat)
    have h2 : wireHeaders (headerBlock w.mem rh) n flags.toNat = [] := by
      unfold wireRequest at h; exact (List.append_eq_nil_iff.mp h).1
    rw [h2] at h1
    simp at h1
    omega
  have hterm := C61_terminates (flags := flags) hp hc hck hst hrt hf1 hf2 hf3
  have hall := sendRequest_slow (flags := flags) (fuel := fuel) hp hfit' hck hP hdue
  have hk := (sendRequest_keeps (sendingS_inv hck hP w.log) cfg hp.hasSend rh body n flags fuel w
    ⟨[], by simp, by simpa [accepted] using hgot, fun h => absurd h.symm hwr⟩).1
  rw [send_eq hp fuel, hwc, hc] at hterm ⊢
  simp only [M.bind_apply] at hterm ⊢
  rcases sendRequest_spec (flags := flags) (clock := .user f) (by simp) hp fuel with
    ⟨h1, h2⟩ | ⟨h1, q, s', m', rh', evs1, e, hfr, hb, hbl, hle, hB, hlen, h2⟩
  · omega
  rw [e] at hall hk hterm
  dsimp only at hall
  rcases h2 with ⟨rfl, hph⟩ | ⟨rfl | rfl, _⟩
  · rw [e]
    simp only [if_true, M.bind_apply] at hterm ⊢
    obtain ⟨evs1', hl1, k1, k2⟩ := hk
    obtain rfl : evs1 = evs1' := List.append_cancel_left hl1
    obtain ⟨s1, s2, _, s4⟩ := sending_kinds hph.kinds
    have hacc := hph.all_ rfl
    have hr := recvPre_of hp hfr hb hbl hle hB hlen
    rw [hwc] at hr
    obtain ⟨k3, k4⟩ := k2 hacc
    rcases e2 : HTTPClient_ReceiveAndParseHttpResponse httpParser cfg fuel (some T) (some resp) (some rh') ⟨s', m', w.log ++ evs1⟩ with ⟨res, w'⟩
    rw [e2] at hterm
    obtain ⟨resp', evs, rfl, hl2, a1, a2, a3, a4⟩ := C103_slow_receive (w := ⟨s', m', w.log ++ evs1⟩) (r := r) (head := head) hr ok
      (by dsimp only; rw [hB]; exact reqIs_wire hblk _ _ hreq) hflag hfit hc hck hP (k1.trans hacc) k3 k4 e2
      (by rintro rfl; exact hterm rfl)
    obtain ⟨_, _, evs', e', hl', hns, _, _⟩ := receive_no_send (w := ⟨s', m', w.log ++ evs1⟩) hr fuel
    rw [e2] at e'; cases e'
    obtain rfl : evs = evs' := List.append_cancel_left (hl2.symm.trans hl')
    refine ⟨rh', resp', w', evs1 ++ evs, rfl, by rw [hl2]; simp, a3, a2, ?_, ?_, ?_⟩
    · rw [accepted_append', (sends_nil hns).2, List.append_nil]; exact hacc
    · rw [received_append, s4]; exact a1
    · exact { a4 with reported := by rw [reported_append, s2]; exact a4.reported }
  · exact absurd rfl (hall _)
  · exact absurd rfl hterm

/-- The peer of `peerT`, but it accepts and delivers something only every third millisecond; every call takes 1 ms. -/
def slowSend (request answer : Bytes) : PeerEnv → Bytes → Int × PeerEnv := fun s d =>
  if s.1 % 3 = 0 then peerSend request answer s d else (0, s.1 + 1, s.2)
def slowRecv : PeerEnv → Nat → Int × Bytes × PeerEnv := fun s len =>
  if s.1 % 3 = 0 then peerRecv s len else (0, [], s.1 + 1, s.2)
def slowT (request answer : Bytes) : Transport PeerEnv := ⟨some (slowSend request answer), some slowRecv⟩
/-- The next bytes are due in the millisecond after the next multiple of three. -/
def slowDue (s : PeerEnv) : Nat := (s.1 + 2) / 3 * 3 + 1

theorem slowPeer_ok (request answer : Bytes) (q : Nat) :
    SlowPeer request answer (fun s => s.2.1) (fun s => s.2.2) (fun s => s.1) slowDue slowDue 10 10 peerClock (slowSend request answer) slowRecv (peerResp q) where
  noError := by intro s d; unfold slowSend; split <;> simp only [peerSend] <;> omega
  takes := by
    intro s d; unfold slowSend; split
    · exact (peer_ok request answer q).takes s d
    · simp
  answers := by
    intro s d h; unfold slowSend at h ⊢; split at h
    · rename_i c; rw [if_pos c]
      intro h2
      refine ⟨(peer_ok request answer q).answers s d h2, ?_⟩
      simp only [peerSend, slowDue]; omega
    · simp at h
  sendTime := by intro s d; unfold slowSend; split <;> simp only [peerSend] <;> omega
  sendWaits := by
    intro s d hd h; unfold slowSend at h ⊢; split at h
    · have := (peer_ok request answer q).accepts s d hd; omega
    · rename_i c; rw [if_neg c]
      simp only [slowDue, peerClock]
      refine ⟨by omega, by omega, by omega, trivial⟩
  sendGoes := by
    intro s d h; unfold slowSend at h ⊢; split at h
    · rename_i c; rw [if_pos c]; simp only [peerSend, slowDue]; omega
    · simp at h
  delivers := by
    intro s len; unfold slowRecv; split
    · exact (peer_ok request answer q).delivers s len
    · simp
  keeps := by intro s len; unfold slowRecv; split <;> rfl
  recvTime := by intro s len; unfold slowRecv; split <;> simp only [peerRecv] <;> omega
  recvWaits := by
    intro s len hl hr h; unfold slowRecv at h ⊢; split at h
    · exact absurd h ((peer_ok request answer q).progress s len hl hr)
    · rename_i c; rw [if_neg c]
      simp only [slowDue, peerClock]
      exact ⟨by omega, by omega⟩
  recvGoes := by
    intro s len h; unfold slowRecv at h ⊢; split at h
    · rename_i c; rw [if_pos c]; simp only [peerRecv, slowDue]; omega
    · simp at h
  clock := fun _ => ⟨rfl, rfl, rfl, rfl⟩
  header := by intro c hc s a x b v code; cases hc; exact ⟨rfl, rfl, rfl, rfl, Nat.le_refl _⟩

theorem slowCallPre (request answer : Bytes) (q : Nat) (hq : q = 0 ∨ q = 1) :
    CallPre true httpParser exCfg (slowT request answer) (slowSend request answer) slowRecv xReq 0 (some 2) 5 (peerResp q) q xMem :=
  { peerCallPre request answer q hq with
    hasSend := rfl
    hasRecv := rfl
    sendOk := (by
      have h := peerSend_ok request answer
      intro s d; unfold slowSend; split
      · exact h s d
      · simp)
    recvOk := (by
      have h := peerRecv_ok
      intro s d; unfold slowRecv; split
      · exact h s d
      · simp) }

/-- All hypotheses of C103 hold for a PUT request with a body and a chunked response, with the slow peer, started at any time (so that the clock may wrap
around during the exchange). -/
theorem slow_exchange (q : Nat) (hq : q = 0 ∨ q = 1) (t : Nat) : ∃ rh' resp' w' evs,
    HTTPClient_Send httpParser exCfg 3000 (some (slowT (wireRequest xMem xReq (some 2) 5 0) exResponse.bytes)) (some xReq) (some 2) 5
      (some (peerResp q)) 0 ⟨(t, [], []), xMem, []⟩ = (.ok (.success, some rh', some resp'), w') ∧ w'.log = evs ∧
    w'.env.2 = (wireRequest xMem xReq (some 2) 5 0, []) ∧ received evs = exResponse.bytes ∧
    Got exCfg exResponse true evs w'.mem resp' ∧ bodyBytes w'.mem resp' = ascii "abcdefghijklmn" ++ [0] := by
  obtain ⟨rh', resp', w', evs, e, hl, h1, h2, _, h4, h5⟩ := C103_slow_exchange (w := (⟨(t, [], []), xMem, []⟩ : World PLog PeerEnv))
    (flags := 0) (fuel := 3000) (f := peerClock) (now := fun s => s.1) (slowCallPre _ _ q hq) exResponse_ok
    (show ¬ ascii "HEAD" <+: headerBlock xMem xReq by decide +kernel)
    (show ¬ ((0 : UInt32).toNat % 2 = 1) by decide) (show exResponse.bytes.length ≤ 200 by decide +kernel)
    (show (wireHeaders (headerBlock xMem xReq) 5 (UInt32.toNat 0)).length ≤ 60 by decide +kernel) rfl ⟨fun _ => rfl, fun _ => Nat.le_refl _⟩
    (slowPeer_ok _ _ q) rfl
    (by show (t + 2) / 3 * 3 + 1 ≤ t + 10; omega)
    (by
      intro s d _
      show s.1 < _ ∧ _ < s.1 + (4294967296 - 10)
      unfold slowSend peerClock; split <;> simp only [peerSend] <;> omega)
    (by
      intro s d _
      show s.1 < _ ∧ _ < s.1 + (4294967296 - 10)
      unfold slowRecv peerClock; split <;> simp only [peerRecv] <;> omega)
    (by decide) (by decide) (show 200 * (10 + 2) + 10 + 2 ≤ 3000 by decide)
  refine ⟨rh', resp', w', evs, e, by simpa using hl, Prod.ext h1 h2, h4, h5, ?_⟩
  rw [h5.body]; decide +kernel

end CoreHttp.Props

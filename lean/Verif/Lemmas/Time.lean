import Verif.Lemmas.Keeps
import Verif.Spec.Time
import Verif.Spec.SendRecv

/-! # How long the calls take -/

namespace CoreHttp
open Spec
variable {σ : Type}

@[simp] theorem goodSends_append {π : Type} (a c : List (Ev π)) : goodSends (a ++ c) = goodSends a + goodSends c := by
  induction a with
  | nil => simp [goodSends]
  | cons e es ih => cases e <;> simp [goodSends, ih]; omega
@[simp] theorem goodRecvs_append {π : Type} (a c : List (Ev π)) : goodRecvs (a ++ c) = goodRecvs a + goodRecvs c := by
  induction a with
  | nil => simp [goodRecvs]
  | cons e es ih => cases e <;> simp [goodRecvs, ih]; omega
@[simp] theorem headerCalls_append {π : Type} (a c : List (Ev π)) : headerCalls (a ++ c) = headerCalls a + headerCalls c := by
  induction a with
  | nil => simp [headerCalls]
  | cons e es ih => cases e <;> simp [headerCalls, ih]; omega

/-- The time a trace accounts for: `Cs` for each send, `Cr` for each receive that made progress, `E` for each header callback. -/
def cost (Cs Cr E : Nat) (evs : List (Ev PLog)) : Nat := goodSends evs * Cs + goodRecvs evs * Cr + headerCalls evs * E

@[simp] theorem cost_nil (Cs Cr E : Nat) : cost Cs Cr E [] = 0 := by simp [cost, goodSends, goodRecvs, headerCalls]
@[simp] theorem cost_append (Cs Cr E : Nat) (a c : List (Ev PLog)) : cost Cs Cr E (a ++ c) = cost Cs Cr E a + cost Cs Cr E c := by
  simp only [cost, goodSends_append, goodRecvs_append, headerCalls_append, Nat.add_mul]; omega
theorem cost_header (Cs Cr E : Nat) (a : List (Ev PLog)) : headerCalls a * E ≤ cost Cs Cr E a := by unfold cost; omega

theorem cost_callbacks (a : List (Ev PLog)) (E : Nat) : cost 0 0 E a = headerCalls a * E := by simp [cost]

/-- The program takes at most `K` ms more than its trace accounts for (if the callbacks do not take so long that the clock wraps around,
`W` ms being needed for the rest), and its result satisfies `Q`. -/
def Within {α : Type} (now : σ → Nat) (Cs Cr E W K : Nat) (x : M PLog σ α) (Q : α → Prop) : Prop :=
  ∀ w, now w.env ≤ now (x w).2.env ∧ (∃ evs, (x w).2.log = w.log ++ evs ∧
    (headerCalls evs * E + W < 4294967296 → now (x w).2.env ≤ now w.env + K + cost Cs Cr E evs)) ∧ ∀ a, (x w).1 = .ok a → Q a

namespace Within
variable {α β : Type} {now : σ → Nat} {Cs Cr E W K K' : Nat}

theorem here {x : M PLog σ α} {Q : α → Prop} (h : ∀ w, (x w).2 = w ∧ ∀ a, (x w).1 = .ok a → Q a) : Within now Cs Cr E W K x Q := by
  intro w
  rw [(h w).1]
  exact ⟨Nat.le_refl _, ⟨[], by simp, fun _ => by simp⟩, (h w).2⟩
theorem pure {a : α} {Q : α → Prop} (h : Q a) : Within now Cs Cr E W K (Pure.pure a : M PLog σ α) Q :=
  here fun w => ⟨rfl, fun a' h' => by simp at h'; rw [← h']; exact h⟩
theorem fault {f : Fault} {Q : α → Prop} : Within now Cs Cr E W K (M.fault f : M PLog σ α) Q := here fun w => ⟨rfl, fun a' h' => by simp at h'⟩
theorem ofRun (r : Run α) : Within now Cs Cr E W K (M.ofRun r : M PLog σ α) fun _ => True := here fun w => ⟨rfl, fun _ _ => trivial⟩
theorem assert (l : Nat) (c : Bool) : Within now Cs Cr E W K (mAssert l c : M PLog σ Unit) fun _ => True := ofRun _
theorem world : Within now Cs Cr E W K (M.world : M PLog σ _) fun _ => True := here fun w => ⟨rfl, fun _ _ => trivial⟩
theorem setMem (m : Mem) : Within now Cs Cr E W K (M.setMem m : M PLog σ Unit) fun _ => True :=
  fun w => ⟨Nat.le_refl _, ⟨[], by simp, fun _ => by simp⟩, fun _ _ => trivial⟩
theorem emit (e : Ev PLog) : Within now Cs Cr E W K (M.emit e : M PLog σ Unit) fun _ => True :=
  fun w => ⟨Nat.le_refl _, ⟨[e], rfl, fun _ => by show now w.env ≤ _; omega⟩, fun _ _ => trivial⟩
theorem bind {x : M PLog σ α} {k : α → M PLog σ β} {Q : α → Prop} {R : β → Prop} (h1 : Within now Cs Cr E W K x Q)
    (h2 : ∀ a, Q a → Within now Cs Cr E W K' (k a) R) : Within now Cs Cr E W (K + K') (x >>= k) R := by
  intro w
  obtain ⟨h3, ⟨e1, hl1, ht1⟩, h4⟩ := h1 w
  simp only [M.bind_apply]
  rcases hx : x w with ⟨a | f | _, w'⟩
  · rw [hx] at h3 h4 hl1 ht1
    obtain ⟨g3, ⟨e2, hl2, ht2⟩, g4⟩ := h2 a (h4 a rfl) w'
    refine ⟨Nat.le_trans h3 g3, ⟨e1 ++ e2, ?_, fun hw => ?_⟩, g4⟩
    · dsimp only at hl1 ⊢
      rw [hl2, hl1, List.append_assoc]
    · simp only [headerCalls_append, Nat.add_mul] at hw
      have := ht1 (by omega)
      have := ht2 (by omega)
      simp only [cost_append]
      dsimp only at *
      omega
  · rw [hx] at h3 hl1 ht1
    exact ⟨h3, ⟨e1, hl1, fun hw => by have := ht1 hw; dsimp only at *; omega⟩, fun a h => by simp at h⟩
  · rw [hx] at h3 hl1 ht1
    exact ⟨h3, ⟨e1, hl1, fun hw => by have := ht1 hw; dsimp only at *; omega⟩, fun a h => by simp at h⟩
theorem mono {x : M PLog σ α} {Q R : α → Prop} {W' : Nat} (h1 : Within now Cs Cr E W K x Q) (hk : K ≤ K') (hW : W ≤ W') (h2 : ∀ a, Q a → R a) :
    Within now Cs Cr E W' K' x R := by
  intro w
  obtain ⟨h3, ⟨e1, hl1, ht1⟩, h4⟩ := h1 w
  exact ⟨h3, ⟨e1, hl1, fun hw => by have := ht1 (by omega); omega⟩, fun a h => h2 a (h4 a h)⟩
/-- Steps that take no time of their own. -/
theorem bind0 {x : M PLog σ α} {k : α → M PLog σ β} {Q : α → Prop} {R : β → Prop} (h1 : Within now Cs Cr E W 0 x Q)
    (h2 : ∀ a, Q a → Within now Cs Cr E W K (k a) R) : Within now Cs Cr E W K (x >>= k) R := by
  have := bind h1 h2
  rw [Nat.zero_add] at this
  exact this
end Within

variable {now : σ → Nat} {D E Cs Cr W : Nat} {send : σ → Bytes → Int × σ} {recv : σ → Nat → Int × Bytes × σ} {clock : TimeFn σ}
  {cb : Option (HeaderCb σ)} {S : Type}

/-- Reading the clock. -/
theorem readClock_time (H : Timed now D E send recv clock cb) (w : World PLog σ) :
    (∃ f, readClock clock w = (.fault f, w)) ∨ ∃ t s', readClock clock w = (.ok t, ⟨s', w.mem, w.log ++ [.time t]⟩) ∧
      now w.env ≤ now s' ∧ now s' ≤ now w.env + D ∧ (clock.isZero = true ∨ t = UInt32.ofNat (now s')) := by
  cases hc : clock with
  | null => exact .inl ⟨_, rfl⟩
  | zero => exact .inr ⟨_, _, rfl, Nat.le_refl _, by omega, .inl rfl⟩
  | user f => exact .inr ⟨_, _, rfl, (H.clockTime f hc w.env).1, (H.clockTime f hc w.env).2, .inr (H.reading f hc w.env)⟩

theorem processCompleteHeader_within (H : Timed now D E send recv clock cb) (cfg : Cfg) (b : Nat) {h : RS S σ} (hf : Fixed clock cb h) :
    Within now Cs Cr E W 0 (processCompleteHeader cfg b h) (Fixed clock cb) := by
  unfold processCompleteHeader
  cases h.ctx.lastField with
  | none => exact .pure hf
  | some f =>
    cases h.ctx.lastValue with
    | none => exact .pure hf
    | some v =>
      refine .bind0 (.assert _ _) fun _ _ => ?_
      dsimp only
      obtain ⟨hf1, hf2⟩ := hf
      cases hcb : h.resp.pHeaderParsingCallback with
      | none => exact .pure ⟨hf1, hcb.symm.trans hf2⟩
      | some c =>
        cases c with
        | null => exact .bind0 (.fault (Q := fun _ => True)) fun _ _ => .pure ⟨hf1, hcb.symm.trans hf2⟩
        | user c =>
        rw [hcb] at hf2
        intro w
        simp only [M.bind_apply, M.world_apply, M.ofRun_apply]
        cases memRead (w.mem b) f h.ctx.lastFieldLen with
        | fault _ => exact ⟨Nat.le_refl _, ⟨[], by simp, fun _ => by simp⟩, fun a h => by simp at h⟩
        | more => exact ⟨Nat.le_refl _, ⟨[], by simp, fun _ => by simp⟩, fun a h => by simp at h⟩
        | ok x =>
          dsimp only
          cases memRead (w.mem b) v h.ctx.lastValueLen with
          | fault _ => exact ⟨Nat.le_refl _, ⟨[], by simp, fun _ => by simp⟩, fun a h => by simp at h⟩
          | more => exact ⟨Nat.le_refl _, ⟨[], by simp, fun _ => by simp⟩, fun a h => by simp at h⟩
          | ok y =>
            have ht := H.header c hf2.symm w.env f x v y h.resp.statusCode
            simp only [M.setEnv_apply, M.emit_apply, M.pure_apply]
            refine ⟨ht.1, ⟨_, rfl, fun _ => ?_⟩, fun a ha => ?_⟩
            · have : cost Cs Cr E [Ev.header f x v y h.resp.statusCode] = E := by simp [cost, goodSends, goodRecvs, headerCalls]
              rw [this]
              exact ht.2
            · simp at ha
              rw [← ha]
              exact ⟨hf1, hf2⟩

theorem recvCallback_within (H : Timed now D E send recv clock cb) (cfg : Cfg) (b base : Nat) (e : PEv) {h : RS S σ} (hf : Fixed clock cb h) :
    Within now Cs Cr E W 0 (recvCallback cfg b base e h) fun x => Fixed clock cb x.2 := by
  cases e with
  | messageBegin => exact .pure hf
  | messageComplete => exact .pure hf
  | status off len code => exact .bind0 (.assert _ _) fun _ _ => .pure hf
  | statusComplete code => exact .bind0 (.assert _ _) fun _ _ => .pure hf
  | headerField off len =>
    refine .bind0 (.assert _ _) fun _ _ => .bind0 (processCompleteHeader_within H _ _ hf) fun g hg => ?_
    cases g.ctx.lastField with
    | none => exact .pure hg
    | some _ => exact .bind0 (.assert _ _) fun _ _ => .pure hg
  | headerValue off len => exact .bind0 (.assert _ _) fun _ _ => .pure hf
  | headersComplete at_ cl cc ka =>
    simp only [recvCallback, onHeadersComplete]
    cases h.ctx.cur with
    | none => exact .fault
    | some cur =>
      refine .bind0 (.assert _ _) fun _ _ => .bind0 (.assert _ _) fun _ _ => .bind0 (Q := fun _ => True) ?_ fun _ _ =>
        .bind0 (processCompleteHeader_within H _ _ hf) fun g hg => .pure hg
      unfold headersLength
      cases h.resp.pHeaders with
      | none => exact .pure trivial
      | some p => exact .bind0 (.assert _ _) fun _ _ => .pure trivial
  | body off len =>
    simp only [recvCallback, onBody]
    refine .bind0 (.assert _ _) fun _ _ => .bind0 (.assert _ _) fun _ _ => ?_
    cases h.resp.pBody with
    | none =>
      dsimp only
      split
      · exact .bind0 .world fun _ _ => .bind0 (.ofRun _) fun _ _ => .bind0 (.ofRun _) fun _ _ => .bind0 (.setMem _) fun _ _ => .pure hf
      · exact .pure hf
    | some q =>
      dsimp only
      split
      · exact .bind0 .world fun _ _ => .bind0 (.ofRun _) fun _ _ => .bind0 (.ofRun _) fun _ _ => .bind0 (.setMem _) fun _ _ => .pure hf
      · exact .pure hf

theorem runTree_within (H : Timed now D E send recv clock cb) (cfg : Cfg) (b base : Nat) (data : Bytes) (t : PTree S) : ∀ {h : RS S σ},
    Fixed clock cb h → Within now Cs Cr E W 0 (runTree b base data (recvCallback cfg b base) t h) fun x => Fixed clock cb x.2.2.2 := by
  induction t with
  | done er ep s => intro h hf; exact .bind0 (.emit _) fun _ _ => .pure hf
  | call e k ih =>
    intro h hf
    exact .bind0 (.emit _) fun _ _ => .bind0 (recvCallback_within H cfg b base e hf) fun r hr => .bind0 .world fun _ _ =>
      .bind0 (.emit _) fun _ _ => ih r.1 hr

theorem parse_within (H : Timed now D E send recv clock cb) (P : Parser) (cfg : Cfg) (b : Nat) {h : RS P.St σ} (hf : Fixed clock cb h) (n : Nat) :
    Within now Cs Cr E W 0 (parseHttpResponse P cfg b h n) fun x => Fixed clock cb x.2 := by
  have hb : Fixed clock cb (bindResponse h) := by unfold bindResponse; split <;> exact hf
  unfold parseHttpResponse
  dsimp only
  cases (bindResponse h).ctx.cur with
  | none => exact .fault
  | some start =>
    exact .bind0 .world fun _ _ => .bind0 (.ofRun _) fun _ _ => .bind0 (.emit _) fun _ _ => .bind0 (runTree_within H _ _ _ _ _ hb) fun x hx =>
      .pure hx

theorem sendLoop_time (H : Timed now D E send recv clock cb) (T : UInt32) (b : Nat) (hz : clock.isZero = true → T = 0)
    (hT : T.toNat + 2 * D < 4294967296) :
    ∀ (fuel off rem : Nat) (last : UInt32) (τ : Nat) (w : World PLog σ), (clock.isZero = true ∨ last = UInt32.ofNat τ) →
      τ ≤ now w.env → now w.env ≤ τ + T.toNat →
      now w.env ≤ now (sendLoop send clock T b fuel off rem last w).2.env ∧
      ∃ evs, (sendLoop send clock T b fuel off rem last w).2.log = w.log ++ evs ∧
        now (sendLoop send clock T b fuel off rem last w).2.env ≤ τ + (T.toNat + 2 * D) + cost (T.toNat + 2 * D) Cr E evs := by
  intro fuel
  induction fuel with
  | zero =>
    intro off rem last τ w _ h0 h1
    unfold sendLoop
    by_cases hr : rem = 0
    · rw [if_pos hr]; exact ⟨Nat.le_refl _, [], by simp, by simp; omega⟩
    · rw [if_neg hr]; exact ⟨Nat.le_refl _, [], by simp, by simp; omega⟩
  | succ n ih =>
    intro off rem last τ w hl h0 h1
    unfold sendLoop
    by_cases hr : rem = 0
    · rw [if_pos hr]; exact ⟨Nat.le_refl _, [], by simp, by simp; omega⟩
    rw [if_neg hr]
    simp only [M.bind_apply, M.world_apply, M.ofRun_apply]
    cases memRead (w.mem b) off rem with
    | fault f => exact ⟨Nat.le_refl _, [], by simp, by simp; omega⟩
    | more => exact ⟨Nat.le_refl _, [], by simp, by simp; omega⟩
    | ok d =>
      have hs := H.send w.env d
      simp only [M.setEnv_apply, M.emit_apply]
      generalize send w.env d = r at hs
      by_cases h2 : r.1 < 0
      · simp only [if_pos h2, M.pure_apply]
        exact ⟨hs.1, _, rfl, by omega⟩
      rw [if_neg h2]
      by_cases h3 : r.1 > 0
      · have hc : cost (T.toNat + 2 * D) Cr E [.send d r.1] = T.toNat + 2 * D := by simp [cost, goodSends, goodRecvs, headerCalls, h3]
        rw [if_pos h3]
        simp only [M.bind_apply, mAssert, cAssert, M.ofRun_apply]
        by_cases h4 : r.1.toNat ≤ rem
        · simp only [decide_eq_true h4, if_true]
          rcases readClock_time H (⟨r.2, w.mem, w.log ++ [.send d r.1]⟩ : World PLog σ) with ⟨f, e⟩ | ⟨t, s', e, g1, g2, g3⟩
          · simp only [e]
            exact ⟨hs.1, _, rfl, by rw [hc]; omega⟩
          · simp only [e]
            dsimp only at g1 g2
            obtain ⟨k1, evs, k2, k3⟩ := ih (off + r.1.toNat) (rem - r.1.toNat) t (now s') ⟨s', w.mem, w.log ++ [.send d r.1] ++ [.time t]⟩ g3
              (Nat.le_refl _) (by dsimp only; omega)
            refine ⟨by dsimp only at k1; omega, [.send d r.1] ++ [.time t] ++ evs, by rw [k2]; simp, ?_⟩
            rw [cost_append, cost_append, hc]
            omega
        · simp only [decide_eq_false h4]
          exact ⟨hs.1, _, rfl, by rw [hc]; show now r.2 ≤ _; omega⟩
      · rw [if_neg h3]
        simp only [M.bind_apply]
        rcases readClock_time H (⟨r.2, w.mem, w.log ++ [.send d r.1]⟩ : World PLog σ) with ⟨f, e⟩ | ⟨t, s', e, g1, g2, g3⟩
        · simp only [e]
          exact ⟨hs.1, _, rfl, by omega⟩
        · simp only [e]
          dsimp only at g1 g2
          by_cases h4 : t - last ≥ T
          · rw [if_pos h4]
            exact ⟨by show _ ≤ now s'; omega, [.send d r.1] ++ [.time t], by simp, by show now s' ≤ _; omega⟩
          · rw [if_neg h4]
            have h5 : now s' - τ < T.toNat := by
              rcases g3 with g3 | g3
              · rw [hz g3] at h4
                exact absurd (by show (0 : UInt32) ≤ _; rw [UInt32.le_iff_toNat_le]; simp) h4
              · rcases hl with hl | hl
                · rw [hz hl] at h4
                  exact absurd (by show (0 : UInt32) ≤ _; rw [UInt32.le_iff_toNat_le]; simp) h4
                · rw [g3, hl] at h4
                  have := clock_ge (a := τ) (b := now s') (T := T) (by omega) (by omega)
                  exact Nat.lt_of_not_le fun h => h4 (this.mpr h)
            obtain ⟨k1, evs, k2, k3⟩ := ih off rem last τ ⟨s', w.mem, w.log ++ [.send d r.1] ++ [.time t]⟩ hl
              (by dsimp only; omega) (by dsimp only; omega)
            refine ⟨by dsimp only at k1; omega, [.send d r.1] ++ [.time t] ++ evs, by rw [k2]; simp, ?_⟩
            rw [cost_append]
            omega

theorem sendData_within (H : Timed now D E send recv clock cb) (cfg : Cfg) {T : Transport σ} (hs : T.send = some send) (b : Option Nat)
    (len fuel : Nat) (hT : cfg.sendTimeoutMs.toNat + 2 * D < 4294967296) :
    Within now (cfg.sendTimeoutMs.toNat + 2 * D) Cr E W (D + (cfg.sendTimeoutMs.toNat + 2 * D))
      (HTTPClient_SendHttpData cfg fuel (some T) clock b len) fun _ => True := by
  unfold HTTPClient_SendHttpData
  simp only [hs]
  cases b with
  | none => exact .fault
  | some b =>
    intro w
    simp only [M.bind_apply]
    rcases readClock_time H w with ⟨f, e⟩ | ⟨t, s', e, g1, g2, g3⟩
    · simp only [e]
      exact ⟨Nat.le_refl _, ⟨[], by simp, fun _ => by simp⟩, fun _ _ => trivial⟩
    · simp only [e]
      have hle : (retryTimeout clock cfg.sendTimeoutMs).toNat ≤ cfg.sendTimeoutMs.toNat := by unfold retryTimeout; split <;> simp
      obtain ⟨k1, evs, k2, k3⟩ := sendLoop_time (Cr := Cr) H (retryTimeout clock cfg.sendTimeoutMs) b (fun h => by simp [retryTimeout, h]) (by omega)
        fuel 0 len t (now s') ⟨s', w.mem, w.log ++ [.time t]⟩ g3 (Nat.le_refl _) (by dsimp only; omega)
      refine ⟨by dsimp only at k1; omega, ⟨[.time t] ++ evs, by rw [k2]; simp, fun _ => ?_⟩, fun _ _ => trivial⟩
      rw [cost_append]
      have : goodSends evs * ((retryTimeout clock cfg.sendTimeoutMs).toNat + 2 * D) ≤ goodSends evs * (cfg.sendTimeoutMs.toNat + 2 * D) :=
        Nat.mul_le_mul_left _ (by omega)
      unfold cost at k3 ⊢
      omega

theorem recvLoop_time (H : Timed now D E send recv clock cb) (P : Parser) (cfg : Cfg) (T : UInt32) (b : Nat) (hz : clock.isZero = true → T = 0) :
    ∀ (fuel total : Nat) (last : UInt32) (h : RS P.St σ) (τ y : Nat) (w : World PLog σ), Fixed clock cb h →
      (clock.isZero = true ∨ last = UInt32.ofNat τ) → τ ≤ now w.env → now w.env ≤ τ + T.toNat + y →
      now w.env ≤ now (recvLoop P cfg recv T b fuel total last h w).2.env ∧
      ∃ evs, (recvLoop P cfg recv T b fuel total last h w).2.log = w.log ++ evs ∧ (y + headerCalls evs * E + T.toNat + 2 * D < 4294967296 →
        now (recvLoop P cfg recv T b fuel total last h w).2.env ≤ τ + y + (T.toNat + 2 * D) + cost Cs (T.toNat + 2 * D) E evs) := by
  intro fuel
  induction fuel with
  | zero =>
    intro total last h τ y w _ _ h0 h1
    exact ⟨Nat.le_refl _, [], by simp [recvLoop], fun _ => by simp [recvLoop]; omega⟩
  | succ n ih =>
    intro total last h τ y w hf hl h0 h1
    unfold recvLoop
    simp only [M.bind_apply, M.world_apply, M.ofRun_apply]
    have hs := H.recv w.env (h.resp.bufferLen - total)
    generalize recv w.env (h.resp.bufferLen - total) = r at hs
    cases hm : memWrite (w.mem b) total r.2.1 with
    | fault f => exact ⟨Nat.le_refl _, [], by simp, fun _ => by simp; omega⟩
    | more => exact ⟨Nat.le_refl _, [], by simp, fun _ => by simp; omega⟩
    | ok blk =>
      simp only [M.setEnv_apply, M.setMem_apply, M.emit_apply]
      generalize he : Ev.recv total (h.resp.bufferLen - total) r.1 (slice blk total r.1.toNat) = ev
      by_cases h2 : r.1 < 0
      · simp only [if_pos h2, M.pure_apply]
        exact ⟨hs.1, _, rfl, fun _ => by show now r.2.2 ≤ _; omega⟩
      rw [if_neg h2]
      by_cases h3 : r.1 > 0
      · have hc : cost Cs (T.toNat + 2 * D) E [ev] = T.toNat + 2 * D := by rw [← he]; simp [cost, goodSends, goodRecvs, headerCalls, h3]
        have hh : headerCalls [ev] = 0 := by rw [← he]; rfl
        rw [if_pos h3]
        simp only [M.bind_apply, hf.1]
        rcases readClock_time H (⟨r.2.2, w.mem.set b blk, w.log ++ [ev]⟩ : World PLog σ) with ⟨f, e⟩ | ⟨t, s', e, g1, g2, g3⟩
        · simp only [e]
          exact ⟨hs.1, _, rfl, fun _ => by rw [hc]; show now r.2.2 ≤ _; omega⟩
        · simp only [e]
          dsimp only at g1 g2
          obtain ⟨p1, ⟨e1, p2, p3⟩, p4⟩ := parse_within (Cs := 0) (Cr := 0) (W := 0) H P cfg b hf r.1.toNat
            (⟨s', w.mem.set b blk, w.log ++ [ev] ++ [.time t]⟩ : World PLog σ)
          have c0 := cost_callbacks e1 E
          have c1 := cost_header Cs (T.toNat + 2 * D) E e1
          rcases hq : parseHttpResponse P cfg b h r.1.toNat (⟨s', w.mem.set b blk, w.log ++ [ev] ++ [.time t]⟩ : World PLog σ) with
            ⟨⟨st, h'⟩ | f | _, w2⟩
          · rw [hq] at p1 p2 p3 p4
            simp only [hq]
            dsimp only at p1 p2 p3 ⊢
            have hf' := p4 _ rfl
            by_cases hgo : st = .success ∧ h'.ctx.state ≠ .complete ∧ total + r.1.toNat < h'.resp.bufferLen
            · rw [if_pos hgo]
              obtain ⟨k1, e2, k2, k3⟩ := ih (total + r.1.toNat) t h' (now s') (now w2.env - now s') w2 hf' g3 p1 (by omega)
              refine ⟨by omega, [ev] ++ [.time t] ++ e1 ++ e2, by rw [k2, p2]; simp, fun hw => ?_⟩
              simp only [headerCalls_append, hh, Nat.add_mul] at hw
              have p3' := p3 (by omega)
              have k3' := k3 (by omega)
              simp only [cost_append, hc]
              omega
            · rw [if_neg hgo]
              refine ⟨by show _ ≤ now w2.env; omega, [ev] ++ [.time t] ++ e1, by show w2.log = _; rw [p2]; simp, fun hw => ?_⟩
              simp only [headerCalls_append, hh, Nat.add_mul] at hw
              have p3' := p3 (by omega)
              simp only [cost_append, hc, M.pure_apply]
              omega
          all_goals
            rw [hq] at p1 p2 p3
            simp only [hq]
            dsimp only at p1 p2 p3 ⊢
            refine ⟨by omega, [ev] ++ [.time t] ++ e1, by rw [p2]; simp, fun hw => ?_⟩
            simp only [headerCalls_append, hh, Nat.add_mul] at hw
            have p3' := p3 (by omega)
            simp only [cost_append, hc]
            omega
      · rw [if_neg h3]
        have hh : headerCalls [ev] = 0 := by rw [← he]; rfl
        simp only [M.bind_apply, hf.1]
        rcases readClock_time H (⟨r.2.2, w.mem.set b blk, w.log ++ [ev]⟩ : World PLog σ) with ⟨f, e⟩ | ⟨t, s', e, g1, g2, g3⟩
        · simp only [e]
          exact ⟨hs.1, _, rfl, fun _ => by show now r.2.2 ≤ _; omega⟩
        simp only [e]
        dsimp only at g1 g2
        by_cases h4 : t - last ≥ T
        · rw [if_pos h4]
          simp only [M.bind_apply]
          obtain ⟨p1, ⟨e1, p2, p3⟩, p4⟩ := parse_within (Cs := 0) (Cr := 0) (W := 0) H P cfg b hf 0
            (⟨s', w.mem.set b blk, w.log ++ [ev] ++ [.time t]⟩ : World PLog σ)
          have c0 := cost_callbacks e1 E
          have c1 := cost_header Cs (T.toNat + 2 * D) E e1
          rcases hq : parseHttpResponse P cfg b h 0 (⟨s', w.mem.set b blk, w.log ++ [ev] ++ [.time t]⟩ : World PLog σ) with
            ⟨⟨st, h'⟩ | f | _, w2⟩
          all_goals
            rw [hq] at p1 p2 p3
            simp only [hq]
            dsimp only at p1 p2 p3 ⊢
            refine ⟨by show _ ≤ now w2.env; omega, [ev] ++ [.time t] ++ e1, by show w2.log = _; rw [p2]; simp, fun hw => ?_⟩
            simp only [headerCalls_append, hh, Nat.add_mul] at hw
            have p3' := p3 (by omega)
            show now w2.env ≤ _
            simp only [cost_append]
            omega
        · rw [if_neg h4]
          by_cases hgo : h.ctx.state ≠ .complete ∧ total < h.resp.bufferLen
          · rw [if_pos hgo]
            obtain ⟨k1, e2, k2, k3⟩ := ih total last h τ (now s' - τ - T.toNat) ⟨s', w.mem.set b blk, w.log ++ [ev] ++ [.time t]⟩ hf hl
              (by dsimp only; omega) (by dsimp only; omega)
            refine ⟨by dsimp only at k1; omega, [ev] ++ [.time t] ++ e2, by rw [k2]; simp, fun hw => ?_⟩
            simp only [headerCalls_append, hh, Nat.add_mul] at hw
            have h5 : now s' - τ < T.toNat := by
              rcases g3 with g3 | g3
              · rw [hz g3] at h4
                exact absurd (by show (0 : UInt32) ≤ _; rw [UInt32.le_iff_toNat_le]; simp) h4
              · rcases hl with hl | hl
                · rw [hz hl] at h4
                  exact absurd (by show (0 : UInt32) ≤ _; rw [UInt32.le_iff_toNat_le]; simp) h4
                · rw [g3, hl] at h4
                  have := clock_ge (a := τ) (b := now s') (T := T) (by omega) (by omega)
                  exact Nat.lt_of_not_le fun h => h4 (this.mpr h)
            have k3' := k3 (by omega)
            simp only [cost_append]
            omega
          · rw [if_neg hgo]
            exact ⟨by show _ ≤ now s'; omega, [ev] ++ [.time t], by simp, fun _ => by show now s' ≤ _; simp only [cost_append]; omega⟩

theorem M_assoc {α β γ : Type} (x : M PLog σ α) (f : α → M PLog σ β) (g : β → M PLog σ γ) : x >>= f >>= g = x >>= fun a => f a >>= g := by
  funext w
  simp only [M.bind_apply]
  rcases x w with ⟨a | _ | _, w'⟩ <;> rfl

theorem finish_within (cfg : Cfg) (st : Status) (total : Nat) (h : RS S σ) :
    Within now Cs Cr E W 0 (finishReceive cfg st total h) fun _ => True := by
  unfold finishReceive
  refine .bind0 (Q := fun _ => True) ?_ fun x _ => ?_
  · split
    · cases h.ctx.cur with
      | none => exact .fault
      | some _ => exact .pure trivial
    · exact .pure trivial
  · obtain ⟨st, h⟩ := x
    dsimp only
    split
    · exact .bind0 (.bind0 (.assert _ _) fun _ _ => .pure (Q := fun _ => True) trivial) fun _ _ => .pure trivial
    · exact .pure trivial

theorem receive_within (P : Parser) (cfg : Cfg) {T : Transport σ} (hr : T.recv = some recv) {resp : Resp σ}
    (H : Timed now D E send recv resp.getTime resp.pHeaderParsingCallback) (orh : Option ReqHeaders) (fuel : Nat) :
    Within now Cs (cfg.recvTimeoutMs.toNat + 2 * D) E (cfg.recvTimeoutMs.toNat + 2 * D) (D + (cfg.recvTimeoutMs.toNat + 2 * D))
      (HTTPClient_ReceiveAndParseHttpResponse P cfg fuel (some T) (some resp) orh) fun _ => True := by
  unfold HTTPClient_ReceiveAndParseHttpResponse
  cases orh with
  | none => simp only [hr]; exact .fault
  | some rh =>
    simp only [hr]
    refine .bind0 (Q := fun _ => True) ?_ fun ctx _ => ?_
    · unfold initializeParsingContext
      refine .bind0 (.assert _ _) fun _ _ => ?_
      cases rh.pBuffer with
      | none => exact .fault
      | some rb => exact .bind0 .world fun _ _ => .bind0 (.ofRun _) fun _ _ => .pure trivial
    · cases resp.pBuffer with
      | none =>
        intro w
        simp only [M.bind_apply]
        rcases readClock_time H w with ⟨f, e⟩ | ⟨t, s', e, g1, g2, g3⟩
        · simp only [e]
          exact ⟨Nat.le_refl _, ⟨[], by simp, fun _ => by simp⟩, fun _ _ => trivial⟩
        · simp only [e]
          exact ⟨g1, ⟨_, rfl, fun _ => by show now s' ≤ _; omega⟩, fun _ _ => trivial⟩
      | some b =>
        have hle : (retryTimeout resp.getTime cfg.recvTimeoutMs).toNat ≤ cfg.recvTimeoutMs.toNat := by unfold retryTimeout; split <;> simp
        rw [← M_assoc]
        refine Within.mono (K := (D + (cfg.recvTimeoutMs.toNat + 2 * D)) + 0) (.bind (Q := fun _ => True) ?_ fun x _ => finish_within cfg _ _ _)
          (Nat.le_refl _) (Nat.le_refl _) fun _ _ => trivial
        intro w
        simp only [M.bind_apply]
        rcases readClock_time H w with ⟨f, e⟩ | ⟨t, s', e, g1, g2, g3⟩
        · simp only [e]
          exact ⟨Nat.le_refl _, ⟨[], by simp, fun _ => by simp⟩, fun _ _ => trivial⟩
        · simp only [e]
          obtain ⟨k1, evs, k2, k3⟩ := recvLoop_time (Cs := Cs) H P cfg (retryTimeout resp.getTime cfg.recvTimeoutMs) b
            (fun h => by simp [retryTimeout, h]) fuel 0 t ⟨resp, ctx⟩ (now s') 0 ⟨s', w.mem, w.log ++ [.time t]⟩ ⟨rfl, rfl⟩ g3
            (Nat.le_refl _) (by dsimp only; omega)
          refine ⟨by dsimp only at k1; omega, ⟨[.time t] ++ evs, by rw [k2]; simp, fun hw => ?_⟩, fun _ _ => trivial⟩
          have h0 : headerCalls [Ev.time (π := PLog) t] = 0 := rfl
          rw [headerCalls_append, h0, Nat.zero_add] at hw
          have := k3 (by omega)
          rw [cost_append]
          have : goodRecvs evs * ((retryTimeout resp.getTime cfg.recvTimeoutMs).toNat + 2 * D) ≤
              goodRecvs evs * (cfg.recvTimeoutMs.toNat + 2 * D) := Nat.mul_le_mul_left _ (by omega)
          unfold cost at this ⊢
          unfold cost at *
          omega

theorem sendRequest_within (H : Timed now D E send recv clock cb) (cfg : Cfg) {T : Transport σ} (hT : T.send = some send) (rh : ReqHeaders)
    (body : Option Nat) (n : Nat) (flags : UInt32) (fuel : Nat) (hs : cfg.sendTimeoutMs.toNat + 2 * D < 4294967296) :
    Within now (cfg.sendTimeoutMs.toNat + 2 * D) Cr E W ((D + (cfg.sendTimeoutMs.toNat + 2 * D)) + (D + (cfg.sendTimeoutMs.toNat + 2 * D)))
      (sendHttpRequest cfg fuel (some T) clock (some rh) body n flags) fun _ => True := by
  unfold sendHttpRequest
  refine .bind0 (.assert _ _) fun _ _ => .bind0 (.assert _ _) fun _ _ => .bind0 (.assert _ _) fun _ _ => .bind0 (.assert _ _) fun _ _ =>
    .bind (Q := fun _ => True) ?_ fun x _ => ?_
  · unfold HTTPClient_SendHttpHeaders
    simp only [hT]
    refine .bind0 .world fun w _ => .bind0 (Q := fun _ => True) ?_ fun r _ => .bind0 (.setMem _) fun _ _ => ?_
    · split
      · exact .ofRun _
      · exact .pure trivial
    · split
      · exact (Within.bind (sendData_within H cfg hT _ _ _ hs) fun _ _ => .pure (K := 0) (Q := fun _ => True) trivial).mono (Nat.le_refl _)
          (Nat.le_refl _) fun _ _ => trivial
      · exact .pure trivial
  · split
    · cases body with
      | none => exact .pure trivial
      | some b =>
        refine (Within.bind (Q := fun _ => True) (K' := 0) ?_ fun _ _ => .pure (Q := fun _ => True) trivial).mono (Nat.le_refl _) (Nat.le_refl _)
          fun _ _ => trivial
        unfold sendHttpBody
        simp only [hT]
        exact sendData_within H cfg hT _ _ _ hs
    · exact .pure trivial

theorem send_within (P : Parser) (cfg : Cfg) {T : Transport σ} (hs : T.send = some send) (hr : T.recv = some recv) {resp : Resp σ}
    (H : Timed now D E send recv (withClock resp).getTime resp.pHeaderParsingCallback) (rh : Option ReqHeaders)
    (body : Option Nat) (n : Nat) (flags : UInt32) (fuel : Nat) (hw : cfg.sendTimeoutMs.toNat + 2 * D < 4294967296) :
    Within now (cfg.sendTimeoutMs.toNat + 2 * D) (cfg.recvTimeoutMs.toNat + 2 * D) E (cfg.recvTimeoutMs.toNat + 2 * D)
      (((D + (cfg.sendTimeoutMs.toNat + 2 * D)) + (D + (cfg.sendTimeoutMs.toNat + 2 * D))) + (D + (cfg.recvTimeoutMs.toNat + 2 * D)))
      (HTTPClient_Send P cfg fuel (some T) rh body n (some resp) flags) fun _ => True := by
  have a1 : ¬ T.send.isNone = true := by simp [hs]
  have a2 : ¬ T.recv.isNone = true := by simp [hr]
  unfold HTTPClient_Send
  dsimp only
  rw [if_neg a1, if_neg a2]
  cases rh with
  | none => exact .pure trivial
  | some rh =>
    dsimp only
    by_cases c0 : rh.pBuffer.isNone = true
    · rw [if_pos c0]; exact .pure trivial
    rw [if_neg c0]
    by_cases c1 : rh.headersLen < MINIMUM_REQUEST_LINE_LENGTH
    · rw [if_pos c1]; exact .pure trivial
    rw [if_neg c1]
    by_cases c2 : rh.headersLen > rh.bufferLen
    · rw [if_pos c2]; exact .pure trivial
    rw [if_neg c2]
    by_cases c3 : resp.pBuffer.isNone = true
    · rw [if_pos c3]; exact .pure trivial
    rw [if_neg c3]
    by_cases c4 : resp.bufferLen = 0
    · rw [if_pos c4]; exact .pure trivial
    rw [if_neg c4]
    by_cases c5 : body.isNone = true ∧ n > 0
    · rw [if_pos c5]; exact .pure trivial
    rw [if_neg c5]
    by_cases c6 : n > 2147483647
    · rw [if_pos c6]; exact .pure trivial
    rw [if_neg c6]
    refine .bind (sendRequest_within H cfg hs rh body n flags fuel hw) fun x _ => ?_
    split
    · exact (Within.bind (receive_within (resp := withClock resp) P cfg hr H x.2 fuel) fun _ _ => .pure (K := 0) (Q := fun _ => True) trivial).mono
        (Nat.le_refl _) (Nat.le_refl _) fun _ _ => trivial
    · exact .pure trivial

end CoreHttp

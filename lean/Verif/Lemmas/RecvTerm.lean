import Verif.Lemmas.RecvBase
import Verif.Lemmas.SendTerm

/-! # Termination of the receiving loop -/

namespace CoreHttp
open Spec
variable {π σ : Type}

/-- The program does not run out of fuel, and its result satisfies `Q`. -/
def NoMore {α : Type} (x : M π σ α) (Q : α → Prop) : Prop := ∀ w, (x w).1 ≠ .more ∧ ∀ a, (x w).1 = .ok a → Q a

namespace NoMore
variable {α β : Type}

theorem pure {a : α} {Q : α → Prop} (h : Q a) : NoMore (Pure.pure a : M π σ α) Q := fun w => ⟨by simp, fun a' h' => by simp at h'; rw [← h']; exact h⟩
theorem fault {f : Fault} {Q : α → Prop} : NoMore (M.fault f : M π σ α) Q := fun w => ⟨by simp, fun a' h' => by simp at h'⟩
theorem bind {x : M π σ α} {k : α → M π σ β} {Q : α → Prop} {R : β → Prop} (h1 : NoMore x Q) (h2 : ∀ a, Q a → NoMore (k a) R) :
    NoMore (x >>= k) R := by
  intro w
  obtain ⟨h3, h4⟩ := h1 w
  simp only [M.bind_apply]
  rcases hx : x w with ⟨a | f | _, w'⟩
  · rw [hx] at h4; exact h2 a (h4 a rfl) w'
  · exact ⟨by simp, fun a h => by simp at h⟩
  · rw [hx] at h3; exact absurd rfl h3
theorem mono {x : M π σ α} {Q R : α → Prop} (h1 : NoMore x Q) (h2 : ∀ a, Q a → R a) : NoMore x R :=
  fun w => ⟨(h1 w).1, fun a h => h2 a ((h1 w).2 a h)⟩
theorem assert (l : Nat) (c : Bool) : NoMore (mAssert l c : M π σ Unit) fun _ => True := by
  intro w; cases c <;> simp [mAssert, cAssert]
theorem emit (e : Ev π) : NoMore (M.emit e : M π σ Unit) fun _ => True := fun w => ⟨by simp, fun _ _ => trivial⟩
theorem setMem (m : Mem) : NoMore (M.setMem m : M π σ Unit) fun _ => True := fun w => ⟨by simp, fun _ _ => trivial⟩
theorem setEnv (s : σ) : NoMore (M.setEnv s : M π σ Unit) fun _ => True := fun w => ⟨by simp, fun _ _ => trivial⟩
theorem world : NoMore (M.world : M π σ _) fun _ => True := fun w => ⟨by simp, fun _ _ => trivial⟩
theorem read (blk : Bytes) (a l : Nat) : NoMore (M.ofRun (memRead blk a l) : M π σ Bytes) fun _ => True := by
  intro w; simp only [M.ofRun_apply, memRead]; split <;> simp
theorem write (blk : Bytes) (a : Nat) (l : Bytes) : NoMore (M.ofRun (memWrite blk a l) : M π σ Bytes) fun _ => True := by
  intro w; simp only [M.ofRun_apply, memWrite]; split <;> simp

/-- At one world. -/
theorem bindAt {x : M π σ α} {k : α → M π σ β} {R : β → Prop} {w : World π σ} (h1 : (x w).1 ≠ .more) (h2 : ∀ a, NoMore (k a) R) :
    ((x >>= k) w).1 ≠ .more := by
  simp only [M.bind_apply]
  rcases hx : x w with ⟨a | f | _, w'⟩
  · exact (h2 a w').1
  · simp
  · rw [hx] at h1; exact absurd rfl h1

end NoMore

variable {S : Type}

/-- The parts of the response object the loop depends on. -/
def Same (h h' : RS S σ) : Prop := h'.resp.bufferLen = h.resp.bufferLen ∧ h'.resp.getTime = h.resp.getTime

theorem Same.trans {h h' h'' : RS S σ} (h1 : Same h h') (h2 : Same h' h'') : Same h h'' := ⟨h2.1.trans h1.1, h2.2.trans h1.2⟩

theorem processCompleteHeader_nm (cfg : Cfg) (b : Nat) (h : RS S σ) : NoMore (processCompleteHeader cfg b h) (Same h) := by
  unfold processCompleteHeader
  cases h.ctx.lastField with
  | none => exact .pure ⟨rfl, rfl⟩
  | some f =>
    cases h.ctx.lastValue with
    | none => exact .pure ⟨rfl, rfl⟩
    | some v =>
      refine .bind (.assert _ _) fun _ _ => ?_
      dsimp only
      cases h.resp.pHeaderParsingCallback with
      | none => simp only [pure_bind]; exact .pure ⟨rfl, rfl⟩
      | some cb =>
        cases cb with
        | null => exact .bind (.fault (Q := fun _ => True)) fun _ _ => .pure ⟨rfl, rfl⟩
        | user cb =>
        exact .bind .world fun _ _ => .bind (.read _ _ _) fun _ _ => .bind (.read _ _ _) fun _ _ => .bind (.setEnv _) fun _ _ =>
          .bind (.emit _) fun _ _ => .pure ⟨rfl, rfl⟩

theorem recvCallback_nm (cfg : Cfg) (b base : Nat) (e : PEv) (h : RS S σ) : NoMore (recvCallback cfg b base e h) fun x => Same h x.2 := by
  cases e with
  | messageBegin => exact .pure ⟨rfl, rfl⟩
  | messageComplete => exact .pure ⟨rfl, rfl⟩
  | status off len code => exact .bind (.assert _ _) fun _ _ => .pure ⟨rfl, rfl⟩
  | statusComplete code => exact .bind (.assert _ _) fun _ _ => .pure ⟨rfl, rfl⟩
  | headerField off len =>
    refine .bind (.assert _ _) fun _ _ => .bind (processCompleteHeader_nm _ _ _) fun g hg => ?_
    cases g.ctx.lastField with
    | none => exact .pure hg
    | some _ => exact .bind (.assert _ _) fun _ _ => .pure hg
  | headerValue off len => exact .bind (.assert _ _) fun _ _ => .pure ⟨rfl, rfl⟩
  | headersComplete at_ cl cc ka =>
    simp only [recvCallback, onHeadersComplete]
    cases h.ctx.cur with
    | none => exact .fault
    | some cur =>
      refine .bind (.assert _ _) fun _ _ => .bind (.assert _ _) fun _ _ => .bind (Q := fun _ => True) ?_ fun _ _ =>
        .bind (processCompleteHeader_nm _ _ _) fun g hg => .pure hg
      unfold headersLength
      cases h.resp.pHeaders with
      | none => exact .pure trivial
      | some p => exact .bind (.assert _ _) fun _ _ => .pure trivial
  | body off len =>
    simp only [recvCallback, onBody]
    refine .bind (.assert _ _) fun _ _ => .bind (.assert _ _) fun _ _ => ?_
    cases h.resp.pBody with
    | none =>
      dsimp only
      split
      · exact .bind .world fun _ _ => .bind (.read _ _ _) fun _ _ => .bind (.write _ _ _) fun _ _ => .bind (.setMem _) fun _ _ => .pure ⟨rfl, rfl⟩
      · exact .pure ⟨rfl, rfl⟩
    | some q =>
      dsimp only
      split
      · exact .bind .world fun _ _ => .bind (.read _ _ _) fun _ _ => .bind (.write _ _ _) fun _ _ => .bind (.setMem _) fun _ _ => .pure ⟨rfl, rfl⟩
      · exact .pure ⟨rfl, rfl⟩

theorem runTree_nm (cfg : Cfg) (b base : Nat) (data : Bytes) (t : PTree S) : ∀ h : RS S σ,
    NoMore (runTree b base data (recvCallback cfg b base) t h) fun x => Same h x.2.2.2 := by
  induction t with
  | done er ep s => intro h; exact .bind (.emit _) fun _ _ => .pure ⟨rfl, rfl⟩
  | call e k ih =>
    intro h
    refine .bind (.emit _) fun _ _ => .bind (recvCallback_nm cfg b base e h) fun r hr => .bind .world fun _ _ => .bind (.emit _) fun _ _ => ?_
    exact (ih r.1 r.2).mono fun x hx => hr.trans hx

theorem parse_nm (P : Parser) (cfg : Cfg) (b : Nat) (h : RS P.St σ) (n : Nat) : NoMore (parseHttpResponse P cfg b h n) fun x => Same h x.2 := by
  have hb : Same h (bindResponse h) := by unfold bindResponse; split <;> exact ⟨rfl, rfl⟩
  unfold parseHttpResponse
  dsimp only
  cases (bindResponse h).ctx.cur with
  | none => exact .fault
  | some start =>
    refine .bind .world fun _ _ => .bind (.read _ _ _) fun _ _ => .bind (.emit _) fun _ _ => .bind (runTree_nm _ _ _ _ _ _) fun x hx => ?_
    exact .pure (hb.trans hx)

/-- Zero-result receives still possible before the timeout, `x` being the time shown since the last progress. -/
def zeroBudget (T x : UInt32) : Nat := if x < T then T.toNat - x.toNat else T.toNat + 1

theorem zeroBudget_le (T x : UInt32) : zeroBudget T x ≤ T.toNat + 1 := by unfold zeroBudget; split <;> omega

/-- An empty receive uses up budget. -/
theorem zeroBudget_step {T last : UInt32} {n n' : Nat} (h1 : n < n') (h2 : n' < n + (4294967296 - T.toNat))
    (h3 : ¬ T ≤ UInt32.ofNat n' - last) : zeroBudget T (UInt32.ofNat n' - last) < zeroBudget T (UInt32.ofNat n - last) := by
  have hT := T.toNat_lt
  have hl := last.toNat_lt
  unfold zeroBudget
  simp only [UInt32.le_iff_toNat_le, UInt32.lt_iff_toNat_lt, UInt32.toNat_sub, UInt32.toNat_ofNat'] at *
  simp only [show (2 : Nat) ^ 32 = 4294967296 from rfl] at *
  rw [if_pos (by omega)]
  split
  · omega
  · omega

theorem recvLoop_terminates {P : Parser} {cfg : Cfg} {recv : σ → Nat → Int × Bytes × σ} (hr : RecvOk recv) {f : σ → UInt32 × σ} {now : σ → Nat}
    {T : UInt32} (hck : ClockOk now f) (htime : RecvTakesTime now f recv (4294967296 - T.toNat)) (b : Nat) :
    ∀ (fuel total : Nat) (last : UInt32) (h : RS P.St σ) (w : World PLog σ), h.resp.getTime = .user f →
      (h.resp.bufferLen - total) * (T.toNat + 2) + zeroBudget T (UInt32.ofNat (now w.env) - last) + 1 ≤ fuel →
      (recvLoop P cfg recv T b fuel total last h w).1 ≠ .more := by
  intro fuel
  induction fuel with
  | zero => intro total last h w _ hf; omega
  | succ n ih =>
    intro total last h w hg hf
    have hok := hr w.env (h.resp.bufferLen - total)
    have hti := htime w.env (h.resp.bufferLen - total)
    unfold recvLoop
    simp only [M.bind_apply, M.world_apply, M.ofRun_apply]
    generalize recv w.env (h.resp.bufferLen - total) = r at hok hti
    unfold memWrite
    by_cases hw : total + r.2.1.length ≤ (w.mem b).length
    · simp only [if_pos hw, M.setEnv_apply, M.setMem_apply, M.emit_apply]
      by_cases h1 : r.1 < 0
      · simp [h1]
      · by_cases h2 : r.1 > 0
        · simp only [if_neg h1, if_pos h2, M.bind_apply, hg, readClock, M.world_apply, M.setEnv_apply, M.emit_apply, M.pure_apply]
          generalize ({ env := _, mem := _, log := _ } : World PLog σ) = w1
          obtain ⟨q1, q2⟩ := parse_nm P cfg b h r.1.toNat w1
          rcases hq : parseHttpResponse P cfg b h r.1.toNat w1 with ⟨⟨st, h'⟩ | f | _, w2⟩
          · rw [hq] at q2
            obtain ⟨q3, q4⟩ := q2 _ rfl
            dsimp only at q3 q4 ⊢
            by_cases hgo : st = .success ∧ h'.ctx.state ≠ .complete ∧ total + r.1.toNat < h'.resp.bufferLen
            · rw [if_pos hgo]
              refine ih _ _ _ _ (q4.trans hg) ?_
              have hz := zeroBudget_le T (UInt32.ofNat (now w2.env) - (f r.2.2).1)
              rw [q3] at hgo ⊢
              have : (h.resp.bufferLen - (total + r.1.toNat) + 1) * (T.toNat + 2) ≤ (h.resp.bufferLen - total) * (T.toNat + 2) :=
                Nat.mul_le_mul_right _ (by omega)
              rw [Nat.add_mul] at this
              omega
            · rw [if_neg hgo]; simp
          · simp
          · rw [hq] at q1; exact absurd rfl q1
        · have h3 : r.1 = 0 := by omega
          obtain ⟨ha, hb⟩ := hti h3
          simp only [if_neg h1, if_neg h2, M.bind_apply, hg, readClock, M.world_apply, M.setEnv_apply, M.emit_apply, M.pure_apply]
          rw [hck.reading]
          have hmono := hck.mono r.2.2
          by_cases h4 : UInt32.ofNat (now (f r.2.2).2) - last ≥ T
          · simp only [if_pos h4, M.bind_apply]
            generalize ({ env := _, mem := _, log := _ } : World PLog σ) = w1
            obtain ⟨q1, q2⟩ := parse_nm P cfg b h 0 w1
            rcases hq : parseHttpResponse P cfg b h 0 w1 with ⟨⟨st, h'⟩ | f | _, w2⟩
            · simp
            · simp
            · rw [hq] at q1; exact absurd rfl q1
          · simp only [if_neg h4]
            by_cases hgo : h.ctx.state ≠ .complete ∧ total < h.resp.bufferLen
            · rw [if_pos hgo]
              refine ih _ _ _ _ hg ?_
              have := zeroBudget_step (T := T) (last := last) (n := now w.env) (n' := now (f r.2.2).2) (by omega) hb h4
              dsimp only
              omega
            · rw [if_neg hgo]; simp
    · simp [hw]

theorem recvLoop_terminates0 {P : Parser} {cfg : Cfg} {recv : σ → Nat → Int × Bytes × σ} (hr : RecvOk recv) (b : Nat) :
    ∀ (fuel total : Nat) (last : UInt32) (h : RS P.St σ) (w : World PLog σ), h.resp.getTime ≠ .null →
      h.resp.bufferLen - total + 1 ≤ fuel → (recvLoop P cfg recv 0 b fuel total last h w).1 ≠ .more := by
  intro fuel
  induction fuel with
  | zero => intro total last h w _ hf; omega
  | succ n ih =>
    intro total last h w hg hf
    have hok := hr w.env (h.resp.bufferLen - total)
    unfold recvLoop
    simp only [M.bind_apply, M.world_apply, M.ofRun_apply]
    generalize recv w.env (h.resp.bufferLen - total) = r at hok
    unfold memWrite
    by_cases hw : total + r.2.1.length ≤ (w.mem b).length
    · simp only [if_pos hw, M.setEnv_apply, M.setMem_apply, M.emit_apply]
      generalize ({ env := _, mem := _, log := _ } : World PLog σ) = w0
      obtain ⟨t, s', e⟩ := readClock_ok hg w0
      by_cases h1 : r.1 < 0
      · simp [h1]
      · by_cases h2 : r.1 > 0
        · simp only [if_neg h1, if_pos h2, M.bind_apply, e]
          generalize ({ env := _, mem := _, log := _ } : World PLog σ) = w1
          obtain ⟨q1, q2⟩ := parse_nm P cfg b h r.1.toNat w1
          rcases hq : parseHttpResponse P cfg b h r.1.toNat w1 with ⟨⟨st, h'⟩ | f | _, w2⟩
          · rw [hq] at q2
            obtain ⟨q3, q4⟩ := q2 _ rfl
            dsimp only at q3 q4 ⊢
            by_cases hgo : st = .success ∧ h'.ctx.state ≠ .complete ∧ total + r.1.toNat < h'.resp.bufferLen
            · rw [if_pos hgo]
              exact ih _ _ _ _ (by rw [q4]; exact hg) (by rw [q3] at hgo ⊢; omega)
            · rw [if_neg hgo]; simp
          · simp
          · rw [hq] at q1; exact absurd rfl q1
        · simp only [if_neg h1, if_neg h2, M.bind_apply, e]
          rw [if_pos (by show (0 : UInt32) ≤ _; rw [UInt32.le_iff_toNat_le]; simp)]
          generalize ({ env := _, mem := _, log := _ } : World PLog σ) = w1
          obtain ⟨q1, q2⟩ := parse_nm P cfg b h 0 w1
          simp only [M.bind_apply]
          rcases hq : parseHttpResponse P cfg b h 0 w1 with ⟨⟨st, h'⟩ | f | _, w2⟩
          · simp
          · simp
          · rw [hq] at q1; exact absurd rfl q1
    · simp [hw]

end CoreHttp

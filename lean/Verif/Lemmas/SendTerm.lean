import Verif.Lemmas.Send

/-! # Termination of the sending loop -/

namespace CoreHttp
open Spec
variable {π σ : Type}

/-- Differences of a wrapping 32-bit clock are true differences below 2^32. -/
theorem clock_sub {a b : Nat} (h : a ≤ b) (hlt : b - a < 4294967296) : (UInt32.ofNat b - UInt32.ofNat a).toNat = b - a := by
  rw [UInt32.toNat_sub]
  simp only [UInt32.toNat_ofNat']
  omega

theorem clock_ge {a b : Nat} {T : UInt32} (h : a ≤ b) (hlt : b - a < 4294967296) :
    T ≤ UInt32.ofNat b - UInt32.ofNat a ↔ T.toNat ≤ b - a := by
  rw [UInt32.le_iff_toNat_le, clock_sub h hlt]

theorem sendLoop_terminates {send : σ → Bytes → Int × σ} (hs : SendOk send) {f : σ → UInt32 × σ} {now : σ → Nat} {T : UInt32}
    (hck : ClockOk now f) (htime : SendTakesTime now f send (4294967296 - T.toNat)) (b : Nat) :
    ∀ (fuel off rem : Nat) (τ0 : Nat) (w : World π σ), off + rem ≤ (w.mem b).length → τ0 ≤ now w.env →
      (now w.env = τ0 ∨ now w.env - τ0 < T.toNat) →
      rem * (T.toNat + 1) + (T.toNat - (now w.env - τ0)) + 1 ≤ fuel →
      (sendLoop send (.user f) T b fuel off rem (UInt32.ofNat τ0) w).1 ≠ .more := by
  intro fuel
  induction fuel with
  | zero => intro off rem τ0 w _ _ _ h; omega
  | succ n ih =>
    intro off rem τ0 w hlen h0 h1 hfuel
    unfold sendLoop
    by_cases hr : rem = 0
    · rw [if_pos hr]; simp
    · rw [if_neg hr]
      generalize hd : ((w.mem b).drop off).take rem = d
      have hdl : d.length = rem := by rw [← hd]; simp; omega
      have hm : memRead (w.mem b) off rem = .ok d := by simp [memRead, hlen, hd]
      simp only [M.bind_apply, M.world_apply, M.ofRun_apply, hm, M.setEnv_apply, M.emit_apply]
      have hle := hs w.env d
      have ht := htime w.env d
      generalize send w.env d = r at hle ht
      have hT : T.toNat < 4294967296 := T.toNat_lt
      by_cases h1' : r.1 < 0
      · simp only [if_pos h1']; simp
      · by_cases h2 : r.1 > 0
        · have hle' : r.1.toNat ≤ rem := by omega
          simp only [if_neg h1', if_pos h2, M.bind_apply, decide_eq_true hle', mAssert_true, readClock, M.world_apply, M.setEnv_apply,
            M.emit_apply, M.pure_apply]
          rw [hck.reading]
          refine ih _ _ _ _ (by simp; omega) (Nat.le_refl _) (.inl rfl) ?_
          dsimp only
          have : (rem - r.1.toNat + 1) * (T.toNat + 1) ≤ rem * (T.toNat + 1) := Nat.mul_le_mul_right _ (by omega)
          rw [Nat.add_mul] at this
          omega
        · have h3 : r.1 = 0 := by omega
          obtain ⟨ha, hb⟩ := ht h3
          simp only [if_neg h1', if_neg h2, M.bind_apply, readClock, M.world_apply, M.setEnv_apply,
            M.emit_apply, M.pure_apply]
          rw [hck.reading]
          have hmono := hck.mono r.2
          have hlt : now (f r.2).2 - τ0 < 4294967296 := by
            clear hfuel ih
            rcases h1 with h1 | h1 <;> omega
          have hge := clock_ge (a := τ0) (b := now (f r.2).2) (T := T) (by omega) hlt
          by_cases h4 : UInt32.ofNat (now (f r.2).2) - UInt32.ofNat τ0 ≥ T
          · rw [if_pos h4]; simp
          · rw [if_neg h4]
            have h4' : now (f r.2).2 - τ0 < T.toNat := Nat.lt_of_not_le fun h => h4 (hge.mpr h)
            refine ih _ _ _ _ hlen (by dsimp only; omega) (.inr h4') ?_
            dsimp only
            omega

theorem sendLoop_terminates0 {send : σ → Bytes → Int × σ} (hs : SendOk send) {clock : TimeFn σ} (hc : clock ≠ .null) (b : Nat) :
    ∀ (fuel off rem : Nat) (last : UInt32) (w : World π σ), off + rem ≤ (w.mem b).length → rem ≤ fuel →
      (sendLoop send clock 0 b fuel off rem last w).1 ≠ .more := by
  intro fuel
  induction fuel with
  | zero =>
    intro off rem last w hlen hfuel
    unfold sendLoop; rw [if_pos (by omega)]; simp
  | succ n ih =>
    intro off rem last w hlen hfuel
    unfold sendLoop
    by_cases hr : rem = 0
    · rw [if_pos hr]; simp
    · rw [if_neg hr]
      generalize hd : ((w.mem b).drop off).take rem = d
      have hdl : d.length = rem := by rw [← hd]; simp; omega
      have hm : memRead (w.mem b) off rem = .ok d := by simp [memRead, hlen, hd]
      simp only [M.bind_apply, M.world_apply, M.ofRun_apply, hm, M.setEnv_apply, M.emit_apply]
      have hle := hs w.env d
      generalize send w.env d = r at hle
      obtain ⟨t, s', e⟩ := readClock_ok hc (⟨r.2, w.mem, w.log ++ [.send d r.1]⟩ : World π σ)
      by_cases h1' : r.1 < 0
      · simp only [if_pos h1']; simp
      · by_cases h2 : r.1 > 0
        · have hle' : r.1.toNat ≤ rem := by omega
          simp only [if_neg h1', if_pos h2, M.bind_apply, decide_eq_true hle', mAssert_true, e]
          exact ih _ _ _ _ (by dsimp only; omega) (by omega)
        · simp only [if_neg h1', if_neg h2, M.bind_apply, e]
          rw [if_pos (by show (0 : UInt32) ≤ _; rw [UInt32.le_iff_toNat_le]; simp)]; simp

end CoreHttp

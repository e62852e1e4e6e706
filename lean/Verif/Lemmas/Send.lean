import Verif.Model.Send
import Verif.Spec.Trace
import Verif.Lemmas.RequestHistory

/-! # What the sending loop does, as a relation on traces -/

namespace CoreHttp
open Spec
variable {π σ : Type}

/-- Traces of the sending loop with data `rem` left and last progress at `last`. -/
inductive SendTrace (T : UInt32) : Bytes → UInt32 → List (Ev π) → Run Status → Prop
  | done (last) : SendTrace T [] last [] (.ok .success)
  | cut {rem last} (h : rem ≠ []) : SendTrace T rem last [] .more
  | err {rem last ret} (h : rem ≠ []) (hr : ret < 0) : SendTrace T rem last [.send rem ret] (.ok .networkError)
  | progress {rem last ret t evs o} (h : rem ≠ []) (hr : 0 < ret) (hle : ret.toNat ≤ rem.length)
      (k : SendTrace T (rem.drop ret.toNat) t evs o) : SendTrace T rem last (.send rem ret :: .time t :: evs) o
  | retry {rem last t evs o} (h : rem ≠ []) (hr : ¬ T ≤ t - last) (k : SendTrace T rem last evs o) :
      SendTrace T rem last (.send rem 0 :: .time t :: evs) o
  | timeout {rem last t} (h : rem ≠ []) (hr : T ≤ t - last) :
      SendTrace T rem last [.send rem 0, .time t] (.ok .networkError)

theorem readClock_ok {clock : TimeFn σ} (hc : clock ≠ .null) (w : World π σ) :
    ∃ t s', readClock clock w = (.ok t, { w with env := s', log := w.log ++ [.time t] }) := by
  cases clock with
  | null => exact absurd rfl hc
  | zero => exact ⟨0, w.env, rfl⟩
  | user f => exact ⟨(f w.env).1, (f w.env).2, rfl⟩

theorem sendLoop_trace {send : σ → Bytes → Int × σ} (hs : SendOk send) {clock : TimeFn σ} (hc : clock ≠ .null) (T : UInt32)
    (b : Nat) : ∀ (fuel off rem : Nat) (last : UInt32) (w : World π σ), off + rem ≤ (w.mem b).length →
    ∃ r s' evs, sendLoop send clock T b fuel off rem last w = (r, ⟨s', w.mem, w.log ++ evs⟩) ∧
      SendTrace T (((w.mem b).drop off).take rem) last evs r := by
  intro fuel
  induction fuel with
  | zero =>
    intro off rem last w hlen
    unfold sendLoop
    by_cases h0 : rem = 0
    · subst h0
      exact ⟨.ok .success, w.env, [], by rw [if_pos rfl]; simp, by simp; exact .done last⟩
    · refine ⟨.more, w.env, [], by rw [if_neg h0]; simp, .cut ?_⟩
      intro h; have := congrArg List.length h; simp at this; omega
  | succ n ih =>
    intro off rem last w hlen
    unfold sendLoop
    by_cases h0 : rem = 0
    · subst h0
      exact ⟨.ok .success, w.env, [], by rw [if_pos rfl]; simp, by simp; exact .done last⟩
    · rw [if_neg h0]
      generalize hd : ((w.mem b).drop off).take rem = d
      have hdl : d.length = rem := by rw [← hd]; simp; omega
      have hne : d ≠ [] := by intro h; rw [h] at hdl; simp at hdl; omega
      have hm : memRead (w.mem b) off rem = .ok d := by simp [memRead, hlen, hd]
      simp only [M.bind_apply, M.world_apply, M.ofRun_apply, hm, M.setEnv_apply, M.emit_apply]
      have hle := hs w.env d
      generalize send w.env d = r at hle
      by_cases h1 : r.1 < 0
      · simp only [if_pos h1]
        exact ⟨_, _, [.send d r.1], rfl, .err hne h1⟩
      · by_cases h2 : r.1 > 0
        · have hle' : r.1.toNat ≤ rem := by omega
          simp only [if_neg h1, if_pos h2, M.bind_apply, decide_eq_true hle', mAssert_true]
          obtain ⟨t, s', e⟩ := readClock_ok hc (⟨r.2, w.mem, w.log ++ [.send d r.1]⟩ : World π σ)
          rw [e]
          obtain ⟨r', s'', evs, e2, tr⟩ := ih (off + r.1.toNat) (rem - r.1.toNat) t
            ⟨s', w.mem, w.log ++ [.send d r.1] ++ [.time t]⟩ (by simp; omega)
          refine ⟨r', s'', .send d r.1 :: .time t :: evs, ?_, ?_⟩
          · dsimp only at e2 ⊢; rw [e2]; simp
          · have : ((w.mem b).drop (off + r.1.toNat)).take (rem - r.1.toNat) = d.drop r.1.toNat := by
              rw [← hd, List.drop_take, List.drop_drop]
            dsimp only at tr
            rw [this] at tr
            exact .progress hne h2 (by omega) tr
        · have h3 : r.1 = 0 := by omega
          simp only [if_neg h1, if_neg h2, M.bind_apply]
          obtain ⟨t, s', e⟩ := readClock_ok hc (⟨r.2, w.mem, w.log ++ [.send d r.1]⟩ : World π σ)
          rw [e]
          dsimp only
          by_cases h4 : t - last ≥ T
          · rw [if_pos h4]
            exact ⟨_, s', [.send d 0, .time t], by simp [h3], .timeout hne h4⟩
          · rw [if_neg h4]
            obtain ⟨r', s'', evs, e2, tr⟩ := ih off rem last ⟨s', w.mem, w.log ++ [.send d r.1] ++ [.time t]⟩ hlen
            refine ⟨r', s'', .send d 0 :: .time t :: evs, ?_, ?_⟩
            · rw [e2]; simp [h3]
            · dsimp only at tr; rw [hd] at tr; exact .retry hne h4 tr

namespace SendTrace
variable {T : UInt32}

theorem accepted_prefix {rem last} {evs : List (Ev π)} {o} (h : SendTrace T rem last evs o) :
    accepted evs <+: rem ∧ (o = .ok .success ↔ accepted evs = rem) := by
  induction h with
  | done => simp [accepted]
  | cut h => simp [accepted]; exact h
  | err h hr =>
    have : Int.toNat _ = 0 := Int.toNat_of_nonpos (Int.le_of_lt hr)
    simp [accepted, this]; exact h
  | @progress rem last ret t evs o h hr hle k ih =>
    simp only [accepted]
    obtain ⟨⟨s, hs⟩, ihi⟩ := ih
    refine ⟨⟨s, ?_⟩, ihi.trans ?_⟩
    · rw [List.append_assoc, hs, List.take_append_drop]
    · conv => rhs; rhs; rw [← List.take_append_drop ret.toNat rem]
      rw [List.append_cancel_left_eq]
  | retry h hr k ih => simpa [accepted] using ih
  | timeout h hr => simp [accepted]; exact h

theorem outcome {rem last} {evs : List (Ev π)} {o} (h : SendTrace T rem last evs o) :
    o = .ok .success ∨ o = .ok .networkError ∨ o = .more := by
  induction h <;> simp_all

theorem offered {rem last} {evs : List (Ev π)} {o} (h : SendTrace T rem last evs o) :
    ∀ pre d r post, evs = pre ++ .send d r :: post → accepted pre ++ d = rem ∧ d ≠ [] ∧ r.toNat ≤ d.length := by
  induction h with
  | done => intro pre d r post e; simp at e
  | cut h => intro pre d r post e; simp at e
  | err h hr =>
    intro pre d r post e
    cases pre with
    | nil => simp at e; obtain ⟨⟨rfl, rfl⟩, _⟩ := e; exact ⟨by simp [accepted], h, by omega⟩
    | cons x xs => simp at e
  | progress h hr hle k ih =>
    intro pre d r post e
    cases pre with
    | nil => simp at e; obtain ⟨⟨rfl, rfl⟩, _⟩ := e; exact ⟨by simp [accepted], h, hle⟩
    | cons x xs =>
      simp at e
      obtain ⟨rfl, e⟩ := e
      cases xs with
      | nil => simp at e
      | cons y ys =>
        simp at e
        obtain ⟨rfl, e⟩ := e
        obtain ⟨h1, h2⟩ := ih _ _ _ _ e
        refine ⟨?_, h2⟩
        simp only [accepted]
        rw [List.append_assoc, h1, List.take_append_drop]
  | retry h hr k ih =>
    intro pre d r post e
    cases pre with
    | nil => simp at e; obtain ⟨⟨rfl, rfl⟩, _⟩ := e; exact ⟨by simp [accepted], h, by simp⟩
    | cons x xs =>
      simp at e
      obtain ⟨rfl, e⟩ := e
      cases xs with
      | nil => simp at e
      | cons y ys =>
        simp at e
        obtain ⟨rfl, e⟩ := e
        simpa [accepted] using ih _ _ _ _ e
  | timeout h hr =>
    intro pre d r post e
    cases pre with
    | nil => simp at e; obtain ⟨⟨rfl, rfl⟩, _⟩ := e; exact ⟨by simp [accepted], h, by simp⟩
    | cons x xs =>
      simp at e
      obtain ⟨rfl, e⟩ := e
      cases xs with
      | nil => simp at e
      | cons y ys => simp at e

theorem negative {rem last} {evs : List (Ev π)} {o} (h : SendTrace T rem last evs o) :
    ∀ pre d r post, evs = pre ++ .send d r :: post → r < 0 → post = [] ∧ o = .ok .networkError := by
  induction h with
  | done => intro pre d r post e; simp at e
  | cut h => intro pre d r post e; simp at e
  | err h hr =>
    intro pre d r post e hneg
    cases pre with
    | nil => simp at e; exact ⟨e.2, rfl⟩
    | cons x xs => simp at e
  | progress h hr hle k ih =>
    intro pre d r post e hneg
    cases pre with
    | nil => simp at e; obtain ⟨⟨rfl, rfl⟩, _⟩ := e; omega
    | cons x xs =>
      simp at e
      obtain ⟨rfl, e⟩ := e
      cases xs with
      | nil => simp at e
      | cons y ys => simp at e; exact ih _ _ _ _ e.2 hneg
  | retry h hr k ih =>
    intro pre d r post e hneg
    cases pre with
    | nil => simp at e; obtain ⟨⟨rfl, rfl⟩, _⟩ := e; omega
    | cons x xs =>
      simp at e
      obtain ⟨rfl, e⟩ := e
      cases xs with
      | nil => simp at e
      | cons y ys => simp at e; exact ih _ _ _ _ e.2 hneg
  | timeout h hr =>
    intro pre d r post e hneg
    cases pre with
    | nil => simp at e; obtain ⟨⟨rfl, rfl⟩, _⟩ := e; omega
    | cons x xs =>
      simp at e
      obtain ⟨rfl, e⟩ := e
      cases xs with
      | nil => simp at e
      | cons y ys => simp at e

theorem failed_why {rem last} {evs : List (Ev π)} {o} (h : SendTrace T rem last evs o) (ho : o = .ok .networkError) :
    (∃ pre d r, evs = pre ++ [.send d r] ∧ r < 0) ∨
    (∃ pre d t, evs = pre ++ [.send d 0, .time t] ∧ T ≤ t - lastProgress last pre) := by
  induction h with
  | done => cases ho
  | cut h => cases ho
  | err h hr => exact .inl ⟨[], _, _, rfl, hr⟩
  | @progress rem last ret t evs o h hr hle k ih =>
    rcases ih ho with ⟨pre, d, r, e, hn⟩ | ⟨pre, d, t', e, ht⟩
    · exact .inl ⟨_ :: _ :: pre, d, r, by rw [e]; rfl, hn⟩
    · exact .inr ⟨.send rem ret :: .time t :: pre, d, t', by rw [e]; rfl, by simpa [lastProgress, hr] using ht⟩
  | @retry rem last t evs o h hr k ih =>
    rcases ih ho with ⟨pre, d, r, e, hn⟩ | ⟨pre, d, t', e, ht⟩
    · exact .inl ⟨_ :: _ :: pre, d, r, by rw [e]; rfl, hn⟩
    · exact .inr ⟨.send rem 0 :: .time t :: pre, d, t', by rw [e]; rfl, by simpa [lastProgress] using ht⟩
  | @timeout rem last t h hr => exact .inr ⟨[], rem, t, rfl, by simpa [lastProgress] using hr⟩

theorem zero_result {rem last} {evs : List (Ev π)} {o} (h : SendTrace T rem last evs o) :
    ∀ pre d post, evs = pre ++ .send d 0 :: post →
      ∃ t post', post = .time t :: post' ∧
        ((o = .ok .networkError ∧ post' = []) ↔ T ≤ t - lastProgress last pre) ∧
        (¬ T ≤ t - lastProgress last pre → SendTrace T d (lastProgress last pre) post' o) := by
  induction h with
  | done => intro pre d post e; simp at e
  | cut h => intro pre d post e; simp at e
  | err h hr =>
    intro pre d post e
    cases pre with
    | nil => simp at e; obtain ⟨⟨rfl, rfl⟩, _⟩ := e; simp at hr
    | cons x xs => simp at e
  | @progress rem last ret t evs o h hr hle k ih =>
    intro pre d post e
    cases pre with
    | nil => simp at e; obtain ⟨⟨rfl, rfl⟩, _⟩ := e; simp at hr
    | cons x xs =>
      simp at e
      obtain ⟨rfl, e⟩ := e
      cases xs with
      | nil => simp at e
      | cons y ys =>
        simp at e
        obtain ⟨rfl, e⟩ := e
        simpa [lastProgress, hr] using ih _ _ _ e
  | @retry rem last t evs o h hr k ih =>
    intro pre d post e
    cases pre with
    | nil =>
      simp at e; obtain ⟨rfl, rfl⟩ := e
      refine ⟨t, evs, rfl, ⟨?_, fun h' => absurd h' hr⟩, fun _ => k⟩
      rintro ⟨rfl, rfl⟩
      cases k
    | cons x xs =>
      simp at e
      obtain ⟨rfl, e⟩ := e
      cases xs with
      | nil => simp at e
      | cons y ys =>
        simp at e
        obtain ⟨rfl, e⟩ := e
        simpa [lastProgress] using ih _ _ _ e
  | @timeout rem last t h hr =>
    intro pre d post e
    cases pre with
    | nil =>
      simp at e; obtain ⟨rfl, rfl⟩ := e
      exact ⟨t, [], rfl, ⟨fun _ => hr, fun _ => ⟨rfl, rfl⟩⟩, fun h' => absurd hr h'⟩
    | cons x xs =>
      simp at e
      obtain ⟨rfl, e⟩ := e
      cases xs with
      | nil => simp at e
      | cons y ys => simp at e

end SendTrace
end CoreHttp

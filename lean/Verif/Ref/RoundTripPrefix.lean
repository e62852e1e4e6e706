import Verif.Ref.RoundTrip

/-! # A strict prefix of a well-formed response is not complete -/

namespace CoreHttp.Ref
open Spec Machine

variable {hr : CbRet}

theorem step_messages (v : View) (o : PObs) : v.messages ≤ (v.step o).messages := by
  unfold View.step
  have hf : v.flush.messages = v.messages := by unfold View.flush; split <;> rfl
  cases o.ev <;> simp [hf]

theorem absTree_messages (t : MTree A) : ∀ (n : Nat) (c : UInt8) (v : View) (o : Option SpanK), v.messages ≤ (absTree hr n c t v o).1.messages := by
  induction t with
  | done a =>
    intro n c v o
    cases o with
    | none => exact Nat.le_refl _
    | some k => exact step_messages _ _
  | fail e => intro n c v o; exact Nat.le_refl _
  | act e t ih =>
    intro n c v o
    cases e with
    | messageBegin => exact Nat.le_trans (step_messages _ _) (ih _ _ _ _)
    | spanStart k => exact Nat.le_trans (step_messages _ _) (ih _ _ _ _)
    | spanEnd => exact ih _ _ _ _
    | spanEndIncl =>
      cases o with
      | none => exact ih _ _ _ _
      | some k => exact Nat.le_trans (step_messages _ _) (ih _ _ _ _)
    | statusComplete code => exact Nat.le_trans (step_messages _ _) (ih _ _ _ _)
    | messageComplete => exact Nat.le_trans (step_messages _ _) (ih _ _ _ _)
  | headers cl cc ka t1 t2 ih1 ih2 =>
    intro n c v o
    cases hr with
    | continue_ => exact Nat.le_trans (step_messages _ _) (ih1 _ _ _ _)
    | noBody => exact Nat.le_trans (step_messages _ _) (ih2 _ _ _ _)
    | pause => exact step_messages _ _
    | user => exact step_messages _ _

theorem run_dead (n : Nat) (v : View) (e : Errno) (cs : Bytes) : run hr n (v, .dead e) cs = (v, .dead e) := absRun_dead http hr n v e cs

theorem run_messages (cs : Bytes) : ∀ (n : Nat) (x : View × St A), x.1.messages ≤ (run hr n x cs).1.messages := by
  induction cs with
  | nil => intro n x; exact Nat.le_refl _
  | cons c cs ih =>
    intro n x
    obtain ⟨v, a | e⟩ := x
    · rw [run_cons]; exact Nat.le_trans (absTree_messages _ _ _ _ _) (ih _ _)
    · rw [run_dead]; exact Nat.le_refl _

/-- A complete message stays as it is, unless another begins. -/
theorem complete_run (cs : Bytes) : ∀ (n : Nat) (v v' : View) (cl : Bool) (a : A) (o : Option SpanK),
    run hr n (v, .live (.complete cl) none) cs = (v', .live a o) → v'.messages ≤ v.messages → v' = v := by
  induction cs with
  | nil => intro n v v' cl a o h _; exact (congrArg Prod.fst h).symm
  | cons c cs ih =>
    intro n v v' cl a o h hm
    rw [run_cons] at h
    simp only [step] at h
    by_cases h1 : c = 13 ∨ c = 10
    · rw [if_pos h1] at h
      exact ih _ _ _ _ _ _ h hm
    · rw [if_neg h1] at h
      by_cases h2 : cl = true
      · rw [if_pos h2] at h
        simp only [absTree, run_dead] at h
        cases h
      · rw [if_neg h2] at h
        by_cases h3 : c = 72
        · rw [if_pos h3] at h
          have := run_messages (hr := hr) cs (n + 1) (absTree hr n c (.act .messageBegin (.done (.proto (ascii "TTP/1.")))) v none)
          rw [h] at this
          simp only [absTree, View.step] at this
          omega
        · rw [if_neg h3] at h
          simp only [absTree, run_dead] at h
          cases h

/-- The message is complete in the view exactly when it is for the parser. -/
def Agree : View × St A → Prop
  | (v, .live (.complete _) o) => v.state = .complete ∧ o = none
  | (v, .live _ _) => v.state ≠ .complete
  | (_, .dead _) => True

theorem frag_state (v : View) (k : SpanK) (d : Bytes) : (v.step (frag k d)).state = v.state := by
  have hf : v.flush.state = v.state := by unfold View.flush; split <;> rfl
  cases k <;> simp [View.step, frag, SpanK.ev, hf]

theorem mb_state (v : View) : (v.step ⟨.messageBegin, 0, []⟩).state = .incomplete := rfl
theorem sc_state (v : View) (code : Nat) : (v.step ⟨.statusComplete code, 0, []⟩).state = v.state := rfl

theorem hc_state (v : View) (n : Nat) (cl : UInt64) (cc ka : Bool) : (v.step ⟨.headersComplete 0 cl cc ka, n, []⟩).state = v.state := by
  have hf : v.flush.state = v.state := by unfold View.flush; split <;> rfl
  simp [View.step, hf]

theorem finish_agree (n : Nat) (c : UInt8) (i : Info) (v : View) : Agree (absTree hr n c (finish i) v none) := by
  simp [finish, absTree, Agree, View.step]

theorem after_agree (n : Nat) (c : UInt8) (i : Info) (v : View) (h : v.state ≠ .complete) : Agree (absTree hr n c (afterHeaders i) v none) := by
  unfold afterHeaders
  split
  · exact h
  · split
    · exact finish_agree _ _ _ _
    · exact h
    · split
      · exact finish_agree _ _ _ _
      · exact h

theorem step_agree (a : A) (o : Option SpanK) (v : View) (n : Nat) (c : UInt8) (h : Agree (v, .live a o)) (ho : a.opened = o) :
    Agree (absTree hr n c (step a c) v o) := by
  cases a with
  | complete cl =>
    simp only [Agree] at h
    obtain ⟨h, rfl⟩ := h
    simp only [step]
    (repeat' split) <;> simp_all [absTree, Agree, View.step]
  | endLF i tr any =>
    subst ho
    simp only [step, A.opened]
    split
    · split
      · exact finish_agree _ _ _ _
      · simp only [absTree]
        cases hr with
        | continue_ => exact after_agree _ _ _ _ (by rw [hc_state]; exact h)
        | noBody => exact finish_agree _ _ _ _
        | pause => trivial
        | user => trivial
    · trivial
  | bodyStart i k =>
    cases k with
    | zero => simp only [step, absTree]; exact finish_agree _ _ _ _
    | succ k =>
      have h : v.state ≠ .complete := h
      simpa [step, absTree, Agree, frag_state] using h
  | bodyIn i k =>
    have h : v.state ≠ .complete := h
    subst ho
    cases k with
    | zero => simp only [step, absTree, A.opened]; exact finish_agree _ _ _ _
    | succ k => simpa [step, absTree, Agree, frag_state, A.opened] using h
  | chunkStart i k =>
    have h : v.state ≠ .complete := h
    subst ho
    cases k <;> simpa [step, absTree, Agree, frag_state, A.opened] using h
  | chunkIn i k =>
    have h : v.state ≠ .complete := h
    subst ho
    cases k <;> simpa [step, absTree, Agree, frag_state, A.opened] using h
  | chunkLF i k =>
    have h : v.state ≠ .complete := h
    subst ho
    simp only [step]
    split
    · cases k <;> simpa [step, absTree, Agree, frag_state, A.opened] using h
    · trivial
  | proto rest =>
    have h : v.state ≠ .complete := h
    subst ho
    match rest with
    | [] => simp only [step]; (repeat' split) <;> simp_all [absTree, Agree, A.opened]
    | [x] => simp only [step]; (repeat' split) <;> simp_all [absTree, Agree, A.opened]
    | x :: y :: rest => simp only [step]; (repeat' split) <;> simp_all [absTree, Agree, A.opened]
  | _ =>
    have h : v.state ≠ .complete := h
    subst ho
    simp only [step]
    (repeat' split) <;> simp_all [absTree, Agree, A.opened, frag_state, mb_state, sc_state]

theorem opened_run (cs : Bytes) : ∀ (n : Nat) (v v' : View) (a a' : A) (o o' : Option SpanK), a.opened = o →
    Agree (v, .live a o) → run hr n (v, .live a o) cs = (v', .live a' o') → a'.opened = o' ∧ Agree (v', .live a' o') := by
  induction cs with
  | nil =>
    intro n v v' a a' o o' h1 h2 h3
    have h3 : (v, St.live a o) = (v', .live a' o') := h3
    cases h3; exact ⟨h1, h2⟩
  | cons c cs ih =>
    intro n v v' a a' o o' h1 h2 h3
    have hs := step_agree (hr := hr) a o v n c h2 h1
    have hM := http_machine_ok.step a c
    rw [run_cons] at h3
    rcases hx : absTree hr n c (step a c) v o with ⟨v1, a1 | e⟩
    · rename_i o1
      rw [hx] at h3 hs
      refine ih _ _ _ _ _ _ _ ?_ hs h3
      subst h1
      have key : ∀ (t : MTree A) (p0 : Phase) (o : Option SpanK) (st lt : Bool) (v v1 : View) (a1 : A) (o1 : Option SpanK),
          ActOk true A.phase A.opened t p0 o st lt → absTree hr n c t v o = (v1, .live a1 o1) → a1.opened = o1 := by
        intro t
        induction t with
        | done a =>
          intro p0 o st lt v v1 a1 o1 h1 h2
          obtain ⟨_, h1⟩ := h1
          cases o <;> simp [absTree] at h2 <;> rw [← h2.2.1, ← h2.2.2, h1]
        | fail e => intro p0 o st lt v v1 a1 o1 h1 h2; simp [absTree] at h2
        | act e t iht =>
          intro p0 o st lt v v1 a1 o1 h1 h2
          cases e with
          | messageBegin => obtain ⟨x1, x2, h1⟩ := h1; (first | subst x1 | subst x2); exact iht _ _ _ _ _ _ _ _ h1 h2
          | spanStart k => exact iht _ _ _ _ _ _ _ _ h1.2.2.2 h2
          | spanEnd => obtain ⟨_, k, _, _, h1⟩ := h1; exact iht _ _ _ _ _ _ _ _ h1 h2
          | spanEndIncl =>
            obtain ⟨k, rfl, h1⟩ := h1; exact iht _ _ _ _ _ _ _ _ h1 h2
          | statusComplete code => obtain ⟨x1, x2, h1⟩ := h1; (first | subst x1 | subst x2); exact iht _ _ _ _ _ _ _ _ h1 h2
          | messageComplete => obtain ⟨x1, x2, h1⟩ := h1; (first | subst x1 | subst x2); exact iht _ _ _ _ _ _ _ _ h1 h2
        | headers cl cc ka t1 t2 ih1 ih2 =>
          intro p0 o st lt v v1 a1 o1 h1 h2
          obtain ⟨x1, x2, _, h3', h4'⟩ := h1
          subst x1
          cases hr with
          | continue_ => exact ih1 _ _ _ _ _ _ _ _ h3' h2
          | noBody => exact ih2 _ _ _ _ _ _ _ _ h4' h2
          | pause => simp [absTree] at h2
          | user => simp [absTree] at h2
      exact key _ _ _ _ _ _ _ _ _ hM hx
    · rw [hx, run_dead] at h3
      cases h3

/-- Before the end of a message there is no error, and the message is not complete. -/
theorem live_before {p q : Bytes} {v : View} {a : A} {o : Option SpanK}
    (e2 : run hr 0 (View.empty, .live .start none) (p ++ q) = (v, .live a o)) (hm2 : v.messages ≤ 1) (e3 : v.state ≠ .complete) :
    ∃ v1 a1 o1, run hr 0 (View.empty, .live .start none) p = (v1, .live a1 o1) ∧ v1.state ≠ .complete := by
  rw [run_append] at e2
  rcases hx : run hr 0 (View.empty, .live .start none) p with ⟨v1, a1 | e⟩
  · rename_i o1
    refine ⟨v1, a1, o1, rfl, ?_⟩
    intro hst
    obtain ⟨h1, h2⟩ := opened_run p 0 _ _ _ _ _ _ rfl (by simp [Agree, View.empty]) hx
    have hcp : ∃ cl, a1 = .complete cl ∧ o1 = none := by
      cases a1 with
      | complete cl => exact ⟨cl, rfl, h2.2⟩
      | _ => exact absurd hst h2
    obtain ⟨cl', rfl, rfl⟩ := hcp
    rw [hx] at e2
    have hm1 : 1 ≤ v1.messages := by
      have key : ∀ (cs : Bytes) (n : Nat) (v v' : View) (a a' : A) (o o' : Option SpanK),
          (v.messages = 0 → a = .start) → run hr n (v, .live a o) cs = (v', .live a' o') → v'.messages = 0 → a' = .start := by
        intro cs
        induction cs with
        | nil => intro n v v' a a' o o' h1 h2 h3; have h2 : (v, St.live a o) = (v', .live a' o') := h2; cases h2; exact h1 h3
        | cons c cs ih =>
          intro n v v' a a' o o' h1 h2 h3
          have hmm := run_messages (hr := hr) (c :: cs) n (v, .live a o)
          rw [h2] at hmm
          have ha := h1 (by dsimp only at hmm; omega)
          subst ha
          rw [run_cons] at h2
          simp only [step] at h2
          by_cases q1 : c = 13 ∨ c = 10
          · rw [if_pos q1] at h2
            cases o with
            | none => exact ih _ _ _ _ _ _ _ (fun _ => rfl) h2 h3
            | some k => exact ih _ _ _ _ _ _ _ (fun _ => rfl) h2 h3
          · rw [if_neg q1] at h2
            by_cases q2 : c = 72
            · rw [if_pos q2] at h2
              have := run_messages (hr := hr) cs (n + 1) (absTree hr n c (.act .messageBegin (.done (.proto (ascii "TTP/1.")))) v o)
              rw [h2] at this
              have h5 := absTree_messages (hr := hr) (.done (.proto (ascii "TTP/1."))) n c (v.step ⟨.messageBegin, 0, []⟩) o
              simp only [View.step] at h5
              simp only [absTree, View.step] at this
              omega
            · rw [if_neg q2] at h2
              simp only [absTree, run_dead] at h2
              cases h2
      apply Classical.byContradiction
      intro hlt
      have := key p 0 _ _ _ _ _ _ (fun _ => rfl) hx (by omega)
      cases this
    have := complete_run q _ _ _ _ _ _ e2 (by omega)
    rw [this] at e3
    exact e3 hst
  · rw [hx, run_dead] at e2
    cases e2

/-- A strict prefix of a well-formed response: no error, and the message is not complete. -/
theorem prefix_run {head : Bool} {r : Response} (ok : r.Ok head) {p : Bytes} (hp : p <+: r.bytes) (hne : p ≠ r.bytes) :
    ∃ v a o, run (answerTo head) 0 (View.empty, .live .start none) p = (v, .live a o) ∧ v.state ≠ .complete := by
  obtain ⟨w, c, v, a, o, e1, e2, e3, e4⟩ := response_run ok
  obtain ⟨q, hq⟩ := hp
  rcases List.eq_nil_or_concat q with rfl | ⟨q', d, rfl⟩
  · exact absurd (by simpa using hq) hne
  have hw : p ++ q' = w := by
    rw [e1, List.concat_eq_append, ← List.append_assoc] at hq
    exact (List.append_inj' hq rfl).1
  rw [← hw] at e2
  refine live_before e2 ?_ e3
  have := run_messages (hr := answerTo head) [c] (0 + (p ++ q').length) (v, .live a o)
  rw [e1, ← hw, run_append, e2] at e4
  rw [e4] at this
  simpa [finalView] using this

end CoreHttp.Ref

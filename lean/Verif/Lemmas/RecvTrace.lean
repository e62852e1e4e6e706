import Verif.Lemmas.RecvTop

/-! # Reading traces of the receiving loop -/

namespace CoreHttp
open Spec
variable {T : UInt32} {L : Nat}

/-- Not a receive and not a result of the parser. -/
def Ev.quiet : Ev PLog → Bool
  | .recv _ _ _ _ => false
  | .parserEvent (.ret _ _) => false
  | _ => true

theorem inParse_quiet {e : Ev PLog} (h : e.inParse = true) : e.quiet = true := by
  cases e with
  | parserEvent x => cases x <;> simp_all [Ev.inParse, Ev.quiet]
  | _ => simp_all [Ev.inParse, Ev.quiet]

theorem lastRecv_inParse {l : List (Ev PLog)} (h : ∀ e ∈ l, e.inParse = true) (t : UInt32) (es : List (Ev PLog)) :
    lastRecv t (l ++ es) = lastRecv t es := by
  induction l with
  | nil => rfl
  | cons x xs ih =>
    have hx := h x List.mem_cons_self
    have := ih fun e he => h e (List.mem_cons_of_mem _ he)
    cases x <;> simp_all [Ev.inParse, lastRecv]

theorem lastRecv_seg {seg : List (Ev PLog)} {er : Errno} {ep : Nat} (h : IsSeg seg er ep) (t : UInt32) (es : List (Ev PLog)) :
    lastRecv t (seg ++ es) = lastRecv t es := by
  obtain ⟨s0, rfl, h0⟩ := h
  rw [List.append_assoc, lastRecv_inParse h0]
  simp [lastRecv]

theorem split_cons {α : Type} {x : α} {l pre post : List α} {e : α} (h : x :: l = pre ++ e :: post) :
    (pre = [] ∧ x = e ∧ l = post) ∨ ∃ pre', pre = x :: pre' ∧ l = pre' ++ e :: post := by
  cases pre with
  | nil => simp at h; exact .inl ⟨rfl, h.1, h.2⟩
  | cons y ys => simp at h; exact .inr ⟨ys, by rw [h.1], h.2⟩

theorem split_append {α : Type} {l1 l2 pre post : List α} {e : α} (h : l1 ++ l2 = pre ++ e :: post) :
    (∃ p', l1 = pre ++ e :: p' ∧ post = p' ++ l2) ∨ ∃ p', pre = l1 ++ p' ∧ l2 = p' ++ e :: post := by
  induction l1 generalizing pre with
  | nil => exact .inr ⟨pre, rfl, h⟩
  | cons x xs ih =>
    cases pre with
    | nil => simp at h; exact .inl ⟨xs, by simp [h.1], by simp [h.2]⟩
    | cons y ys =>
      simp at h
      obtain ⟨rfl, h⟩ := h
      rcases ih h with ⟨p', h1, h2⟩ | ⟨p', h1, h2⟩
      · exact .inl ⟨p', by simp [h1], h2⟩
      · exact .inr ⟨p', by simp [h1], h2⟩

/-- Where in a segment an event that is not quiet can be. -/
theorem seg_split {seg rest pre post : List (Ev PLog)} {er : Errno} {ep : Nat} {e : Ev PLog} (hs : IsSeg seg er ep)
    (h : seg ++ rest = pre ++ e :: post) (he : e.quiet = false) :
    (e = .parserEvent (.ret er ep) ∧ pre ++ [e] = seg ∧ post = rest) ∨ ∃ pre', pre = seg ++ pre' ∧ rest = pre' ++ e :: post := by
  rcases split_append h with ⟨p', h1, h2⟩ | h
  · left
    obtain ⟨s0, hs0, h0⟩ := hs
    rw [hs0] at h1
    rcases split_append h1 with ⟨p'', q1, q2⟩ | ⟨p'', q1, q2⟩
    · have := h0 e (by rw [q1]; simp)
      rw [inParse_quiet this] at he; cases he
    · rcases split_cons q2 with ⟨rfl, rfl, rfl⟩ | ⟨pre', _, q3⟩
      · refine ⟨rfl, by rw [hs0, q1]; simp, by simpa using h2⟩
      · simp at q3
  · exact .inr h

/-- What follows a receive call in a trace. `p0` is the trace before the loop. -/
theorem RecvTrace.recv_split {p0 : List (Ev PLog)} {last : UInt32} {evs : List (Ev PLog)} {o : Option Status}
    (h : RecvTrace T L p0 last evs o) : ∀ pre off len ret data post, evs = pre ++ .recv off len ret data :: post →
      (ret < 0 ∧ post = [] ∧ o = some .networkError) ∨
      (0 < ret ∧ ∃ t seg er ep rest, post = .time t :: .parserCall off data :: (seg ++ rest) ∧ IsSeg seg er ep ∧
        ((rest = [] ∧ o = some (processLlhttpError er)) ∨
          (er = .ok ∧ RecvTrace T L (p0 ++ pre ++ .recv off len ret data :: .time t :: .parserCall off data :: seg) t rest o))) ∨
      (ret = 0 ∧ ∃ t rest, post = .time t :: rest ∧
        ((T ≤ t - lastRecv last pre ∧ ∃ seg er ep, rest = .parserCall off [] :: seg ∧ IsSeg seg er ep ∧ o = some (processLlhttpError er)) ∨
         (¬ T ≤ t - lastRecv last pre ∧
           RecvTrace T L (p0 ++ pre ++ [.recv off len ret data, .time t]) (lastRecv last pre) rest o))) := by
  induction h with
  | cut => intro pre off len ret data post h; simp at h
  | err hr =>
    intro pre off len ret data post h
    rcases split_cons h with ⟨rfl, h1, rfl⟩ | ⟨pre', _, h1⟩
    · cases h1; exact .inl ⟨hr, rfl, rfl⟩
    · simp at h1
  | data_stop hr hs hd =>
    intro pre off len ret data post h
    rcases split_cons h with ⟨rfl, h1, rfl⟩ | ⟨pre2, rfl, k2⟩
    · cases h1
      exact .inr (.inl ⟨hr, _, _, _, _, [], by rw [List.append_nil], hs, .inl ⟨rfl, rfl⟩⟩)
    · rcases split_cons k2 with ⟨_, h1, _⟩ | ⟨pre3, rfl, k3⟩
      · cases h1
      rcases split_cons k3 with ⟨_, h1, _⟩ | ⟨pre4, rfl, k4⟩
      · cases h1
      rcases seg_split (rest := []) hs (by simpa using k4) rfl with ⟨h1, _⟩ | ⟨_, _, h1⟩
      · cases h1
      · simp at h1
  | @data_go pre0 last ret0 data0 t seg er ep evs o hr hs he hd hlt k ih =>
    intro pre off len ret data post h
    rcases split_cons h with ⟨rfl, h1, rfl⟩ | ⟨pre5, rfl, k5⟩
    · cases h1
      exact .inr (.inl ⟨hr, _, _, _, _, evs, rfl, hs, .inr ⟨he, by simpa using k⟩⟩)
    · rcases split_cons k5 with ⟨_, h1, _⟩ | ⟨pre6, rfl, k6⟩
      · cases h1
      rcases split_cons k6 with ⟨_, h1, _⟩ | ⟨pre7, rfl, k7⟩
      · cases h1
      rcases seg_split hs k7 rfl with ⟨h1, _⟩ | ⟨pre'', rfl, h1⟩
      · cases h1
      have hlr : lastRecv last (.recv (received pre0).length (L - (received pre0).length) ret0 data0 :: .time t ::
          .parserCall (received pre0).length data0 :: (seg ++ pre'')) = lastRecv t pre'' := by
        rw [lastRecv, if_pos hr]
        rw [show lastRecv t (.parserCall (received pre0).length data0 :: (seg ++ pre'')) = lastRecv t (seg ++ pre'') by simp [lastRecv],
          lastRecv_seg hs]
      rw [hlr]
      simpa using ih _ _ _ _ _ _ h1
  | zero_stop hs ht =>
    intro pre off len ret data post h
    rcases split_cons h with ⟨rfl, h1, rfl⟩ | ⟨pre8, rfl, k8⟩
    · cases h1
      exact .inr (.inr ⟨rfl, _, _, rfl, .inl ⟨ht, _, _, _, rfl, hs, rfl⟩⟩)
    · rcases split_cons k8 with ⟨_, h1, _⟩ | ⟨pre9, rfl, k9⟩
      · cases h1
      rcases split_cons k9 with ⟨_, h1, _⟩ | ⟨pre10, rfl, k10⟩
      · cases h1
      rcases seg_split (rest := []) hs (by simpa using k10) rfl with ⟨h1, _⟩ | ⟨_, _, h1⟩
      · cases h1
      · simp at h1
  | @zero_go pre0 last t evs o ht k ih =>
    intro pre off len ret data post h
    rcases split_cons h with ⟨rfl, h1, rfl⟩ | ⟨pre11, rfl, k11⟩
    · cases h1
      exact .inr (.inr ⟨rfl, _, _, rfl, .inr ⟨ht, by simpa [lastRecv] using k⟩⟩)
    · rcases split_cons k11 with ⟨_, h1, _⟩ | ⟨pre12, rfl, k12⟩
      · cases h1
      have hlr : lastRecv last (.recv (received pre0).length (L - (received pre0).length) 0 [] :: .time t :: pre12) = lastRecv last pre12 := by
        rw [lastRecv, if_neg (by simp)]
      rw [hlr]
      simpa using ih _ _ _ _ _ _ k12

/-- What follows a result of the parser in a trace. -/
theorem RecvTrace.ret_split {p0 : List (Ev PLog)} {last : UInt32} {evs : List (Ev PLog)} {o : Option Status}
    (h : RecvTrace T L p0 last evs o) : ∀ pre er ep post, evs = pre ++ .parserEvent (.ret er ep) :: post →
      (post = [] ∧ o = some (processLlhttpError er)) ∨
      (er = .ok ∧ msgState (p0 ++ pre) ≠ .complete ∧ ∃ last', RecvTrace T L (p0 ++ pre ++ [.parserEvent (.ret er ep)]) last' post o) := by
  induction h with
  | cut => intro pre er ep post h; simp at h
  | err hr =>
    intro pre er ep post h
    rcases split_cons h with ⟨_, h1, _⟩ | ⟨pre', _, h1⟩
    · cases h1
    · simp at h1
  | data_stop hr hs hd =>
    intro pre er' ep' post h
    rcases split_cons h with ⟨_, h1, _⟩ | ⟨pre14, rfl, k14⟩
    · cases h1
    rcases split_cons k14 with ⟨_, h1, _⟩ | ⟨pre15, rfl, k15⟩
    · cases h1
    rcases split_cons k15 with ⟨_, h1, _⟩ | ⟨pre16, rfl, k16⟩
    · cases h1
    rcases seg_split (rest := []) hs (by simpa using k16) rfl with ⟨h1, _, h2⟩ | ⟨_, _, h1⟩
    · cases h1; exact .inl ⟨h2, rfl⟩
    · simp at h1
  | @data_go pre0 last ret0 data0 t seg er ep evs o hr hs he hd hlt k ih =>
    intro pre er' ep' post h
    rcases split_cons h with ⟨_, h1, _⟩ | ⟨pre17, rfl, k17⟩
    · cases h1
    rcases split_cons k17 with ⟨_, h1, _⟩ | ⟨pre18, rfl, k18⟩
    · cases h1
    rcases split_cons k18 with ⟨_, h1, _⟩ | ⟨pre19, rfl, k19⟩
    · cases h1
    rcases seg_split hs k19 rfl with ⟨h1, h2, h3⟩ | ⟨pre'', rfl, h1⟩
    · cases h1
      right
      refine ⟨he, ?_, t, ?_⟩
      · rw [← h2] at hd
        intro hc
        apply hd
        rw [← hc]
        simp [msgState, obsOf]
      · rw [h3]
        rw [← h2] at k
        simpa using k
    · simpa using ih _ _ _ _ h1
  | zero_stop hs ht =>
    intro pre er' ep' post h
    rcases split_cons h with ⟨_, h1, _⟩ | ⟨pre20, rfl, k20⟩
    · cases h1
    rcases split_cons k20 with ⟨_, h1, _⟩ | ⟨pre21, rfl, k21⟩
    · cases h1
    rcases split_cons k21 with ⟨_, h1, _⟩ | ⟨pre22, rfl, k22⟩
    · cases h1
    rcases seg_split (rest := []) hs (by simpa using k22) rfl with ⟨h1, _, h2⟩ | ⟨_, _, h1⟩
    · cases h1; exact .inl ⟨h2, rfl⟩
    · simp at h1
  | @zero_go pre0 last t evs o ht k ih =>
    intro pre er' ep' post h
    rcases split_cons h with ⟨_, h1, _⟩ | ⟨pre23, rfl, k23⟩
    · cases h1
    rcases split_cons k23 with ⟨_, h1, _⟩ | ⟨pre24, rfl, k24⟩
    · cases h1
    simpa using ih _ _ _ _ k24

/-- Data is only requested while the message is not complete. -/
theorem RecvTrace.recv_open {p0 : List (Ev PLog)} {last : UInt32} {evs : List (Ev PLog)} {o : Option Status}
    (h : RecvTrace T L p0 last evs o) : msgState p0 ≠ .complete → ∀ pre off len ret data post, evs = pre ++ .recv off len ret data :: post →
      msgState (p0 ++ pre) ≠ .complete := by
  induction h with
  | cut => intro _ pre off len ret data post h; simp at h
  | err hr =>
    intro h0 pre off len ret data post h
    rcases split_cons h with ⟨rfl, _, _⟩ | ⟨pre', _, h1⟩
    · simpa using h0
    · simp at h1
  | data_stop hr hs hd =>
    intro h0 pre off len ret data post h
    rcases split_cons h with ⟨rfl, _, _⟩ | ⟨pre2, rfl, k2⟩
    · simpa using h0
    · rcases split_cons k2 with ⟨_, h1, _⟩ | ⟨pre3, rfl, k3⟩
      · cases h1
      rcases split_cons k3 with ⟨_, h1, _⟩ | ⟨pre4, rfl, k4⟩
      · cases h1
      rcases seg_split (rest := []) hs (by simpa using k4) rfl with ⟨h1, _⟩ | ⟨_, _, h1⟩
      · cases h1
      · simp at h1
  | @data_go pre0 last ret0 data0 t seg er ep evs o hr hs he hd hlt k ih =>
    intro h0 pre off len ret data post h
    rcases split_cons h with ⟨rfl, _, _⟩ | ⟨pre5, rfl, k5⟩
    · simpa using h0
    · rcases split_cons k5 with ⟨_, h1, _⟩ | ⟨pre6, rfl, k6⟩
      · cases h1
      rcases split_cons k6 with ⟨_, h1, _⟩ | ⟨pre7, rfl, k7⟩
      · cases h1
      rcases seg_split hs k7 rfl with ⟨h1, _⟩ | ⟨pre'', rfl, h1⟩
      · cases h1
      simpa using ih hd _ _ _ _ _ _ h1
  | zero_stop hs ht =>
    intro h0 pre off len ret data post h
    rcases split_cons h with ⟨rfl, _, _⟩ | ⟨pre8, rfl, k8⟩
    · simpa using h0
    · rcases split_cons k8 with ⟨_, h1, _⟩ | ⟨pre9, rfl, k9⟩
      · cases h1
      rcases split_cons k9 with ⟨_, h1, _⟩ | ⟨pre10, rfl, k10⟩
      · cases h1
      rcases seg_split (rest := []) hs (by simpa using k10) rfl with ⟨h1, _⟩ | ⟨_, _, h1⟩
      · cases h1
      · simp at h1
  | @zero_go pre0 last t evs o ht k ih =>
    intro h0 pre off len ret data post h
    rcases split_cons h with ⟨rfl, _, _⟩ | ⟨pre11, rfl, k11⟩
    · simpa using h0
    · rcases split_cons k11 with ⟨_, h1, _⟩ | ⟨pre12, rfl, k12⟩
      · cases h1
      have h1 : msgState (pre0 ++ [.recv (received pre0).length (L - (received pre0).length) 0 [], .time t]) ≠ .complete := by
        have : obsOf (pre0 ++ [.recv (received pre0).length (L - (received pre0).length) 0 [], .time t]) = obsOf pre0 := by simp [obsOf]
        unfold msgState at h0 ⊢; rw [this]; exact h0
      simpa using ih h1 _ _ _ _ _ _ k12

/-- A trace that is not over starts with a receive call; one that has not begun is cut off. -/
theorem RecvTrace.starts {p0 : List (Ev PLog)} {last : UInt32} {evs : List (Ev PLog)} {o : Option Status} (h : RecvTrace T L p0 last evs o) :
    (evs = [] ∧ o = none) ∨ ∃ off len ret data rest, evs = .recv off len ret data :: rest := by
  cases h with
  | cut => exact .inl ⟨rfl, rfl⟩
  | err hr => exact .inr ⟨_, _, _, _, _, rfl⟩
  | data_stop hr hs hd => exact .inr ⟨_, _, _, _, _, rfl⟩
  | data_go hr hs he hd hlt k => exact .inr ⟨_, _, _, _, _, rfl⟩
  | zero_stop hs ht => exact .inr ⟨_, _, _, _, _, rfl⟩
  | zero_go ht k => exact .inr ⟨_, _, _, _, _, rfl⟩

/-- How a trace ends. -/
theorem RecvTrace.ends {p0 : List (Ev PLog)} {last : UInt32} {evs : List (Ev PLog)} {o : Option Status} (h : RecvTrace T L p0 last evs o) :
    ∀ st, o = some st →
      (st = .networkError ∧ ∃ pre off len ret data, evs = pre ++ [.recv off len ret data] ∧ ret < 0) ∨
      (∃ pre er ep, evs = pre ++ [.parserEvent (.ret er ep)] ∧ st = processLlhttpError er) := by
  induction h with
  | cut => intro st h; cases h
  | err hr => intro st h; cases h; exact .inl ⟨rfl, [], _, _, _, _, rfl, hr⟩
  | @data_stop pre0 last ret0 data0 t seg er ep hr hs hd =>
    intro st h
    cases h
    right
    obtain ⟨s0, rfl, _⟩ := hs
    exact ⟨.recv _ _ _ _ :: .time t :: .parserCall _ _ :: s0, er, ep, rfl, rfl⟩
  | @data_go pre0 last ret0 data0 t seg er ep evs o hr hs he hd hlt k ih =>
    intro st h
    rcases ih st h with ⟨h1, pre, off, len, ret, data, h2, h3⟩ | ⟨pre, er', ep', h2, h3⟩
    · exact .inl ⟨h1, _, off, len, ret, data, by rw [h2, ← List.append_assoc], h3⟩
    · exact .inr ⟨_, er', ep', by rw [h2, ← List.append_assoc], h3⟩
  | @zero_stop pre0 last t seg er ep hs ht =>
    intro st h
    cases h
    right
    obtain ⟨s0, rfl, _⟩ := hs
    exact ⟨.recv _ _ _ _ :: .time t :: .parserCall _ _ :: s0, er, ep, rfl, rfl⟩
  | @zero_go pre0 last t evs o ht k ih =>
    intro st h
    rcases ih st h with ⟨h1, pre, off, len, ret, data, h2, h3⟩ | ⟨pre, er', ep', h2, h3⟩
    · exact .inl ⟨h1, .recv _ _ _ _ :: .time t :: pre, off, len, ret, data, by rw [h2]; rfl, h3⟩
    · exact .inr ⟨.recv _ _ _ _ :: .time t :: pre, er', ep', by rw [h2]; rfl, h3⟩

/-- Why a trace ends with a result of the parser: an error, a complete message, a full buffer, or a timeout. -/
theorem RecvTrace.stop_why {p0 : List (Ev PLog)} {last : UInt32} {evs : List (Ev PLog)} {o : Option Status} (h : RecvTrace T L p0 last evs o) :
    ∀ pre er ep, evs = pre ++ [.parserEvent (.ret er ep)] → o ≠ none → processLlhttpError er = .success → msgState (p0 ++ evs) ≠ .complete →
      (received (p0 ++ evs)).length ≠ L →
      ∃ pre1 off len t seg, evs = pre1 ++ .recv off len 0 [] :: .time t :: .parserCall off [] :: seg ∧ IsSeg seg er ep ∧
        T ≤ t - lastRecv last pre1 := by
  induction h with
  | cut => intro pre er ep h; simp at h
  | err hr =>
    intro pre er ep h
    rcases split_cons h with ⟨_, h1, _⟩ | ⟨pre', _, h1⟩
    · cases h1
    · simp at h1
  | @data_stop pre0 last ret0 data0 t seg er ep hr hs hd =>
    intro pre er' ep' h _ hok hnc hnf
    exfalso
    have her : er' = er := by
      obtain ⟨s0, rfl, _⟩ := hs
      rw [show Ev.recv (received pre0).length (L - (received pre0).length) ret0 data0 :: Ev.time t ::
        Ev.parserCall (received pre0).length data0 :: (s0 ++ [Ev.parserEvent (.ret er ep)]) =
        (Ev.recv (received pre0).length (L - (received pre0).length) ret0 data0 :: Ev.time t ::
        Ev.parserCall (received pre0).length data0 :: s0) ++ [Ev.parserEvent (.ret er ep)] by simp] at h
      have := (List.append_inj' h rfl).2
      simp at this; exact this.1.symm
    rcases hd with hd | hd | hd
    · rw [← her] at hd; exact hd hok
    · exact hnc hd
    · apply hnf
      rw [← hd]
      simp [received, hs.received.1]
  | @data_go pre0 last ret0 data0 t seg er ep evs o hr hs he hd hlt k ih =>
    intro pre er' ep' h ho hok hnc hnf
    have hne : evs ≠ [] := by
      rintro rfl
      rcases k.starts with ⟨_, h1⟩ | ⟨_, _, _, _, _, h1⟩
      · exact ho h1
      · cases h1
    obtain ⟨evs', x, rfl⟩ := (List.eq_nil_or_concat evs).resolve_left hne
    rw [List.concat_eq_append] at *
    have hx : x = .parserEvent (.ret er' ep') := by
      rw [← List.append_assoc] at h
      have := (List.append_inj' h rfl).2
      simpa using this
    subst hx
    obtain ⟨pre1, off, len, t', seg', h1, h2, h3⟩ := ih evs' er' ep' rfl ho hok (by simpa using hnc) (by simpa using hnf)
    refine ⟨.recv (received pre0).length (L - (received pre0).length) ret0 data0 :: .time t ::
      .parserCall (received pre0).length data0 :: (seg ++ pre1), off, len, t', seg', by rw [h1]; simp, h2, ?_⟩
    have hlr : lastRecv last (.recv (received pre0).length (L - (received pre0).length) ret0 data0 :: .time t ::
        .parserCall (received pre0).length data0 :: (seg ++ pre1)) = lastRecv t pre1 := by
      rw [lastRecv, if_pos hr]
      rw [show lastRecv t (.parserCall (received pre0).length data0 :: (seg ++ pre1)) = lastRecv t (seg ++ pre1) by simp [lastRecv],
        lastRecv_seg hs]
    rw [hlr]; exact h3
  | @zero_stop pre0 last t seg er ep hs ht =>
    intro pre er' ep' h _ hok hnc hnf
    have her : er' = er ∧ ep' = ep := by
      obtain ⟨s0, rfl, _⟩ := hs
      rw [show Ev.recv (received pre0).length (L - (received pre0).length) 0 [] :: Ev.time t ::
        Ev.parserCall (received pre0).length [] :: (s0 ++ [Ev.parserEvent (.ret er ep)]) =
        (Ev.recv (received pre0).length (L - (received pre0).length) 0 [] :: Ev.time t ::
        Ev.parserCall (received pre0).length [] :: s0) ++ [Ev.parserEvent (.ret er ep)] by simp] at h
      have := (List.append_inj' h rfl).2
      simp at this; exact ⟨this.1.symm, this.2.symm⟩
    obtain ⟨rfl, rfl⟩ := her
    exact ⟨[], _, _, t, seg, rfl, hs, by simpa [lastRecv] using ht⟩
  | @zero_go pre0 last t evs o ht k ih =>
    intro pre er' ep' h ho hok hnc hnf
    have hne : evs ≠ [] := by
      rintro rfl
      rcases k.starts with ⟨_, h1⟩ | ⟨_, _, _, _, _, h1⟩
      · exact ho h1
      · cases h1
    obtain ⟨evs', x, rfl⟩ := (List.eq_nil_or_concat evs).resolve_left hne
    rw [List.concat_eq_append] at *
    have hx : x = .parserEvent (.ret er' ep') := by
      rw [show Ev.recv (received pre0).length (L - (received pre0).length) 0 [] :: Ev.time t :: (evs' ++ [x]) =
        (Ev.recv (received pre0).length (L - (received pre0).length) 0 [] :: Ev.time t :: evs') ++ [x] by simp] at h
      have := (List.append_inj' h rfl).2
      simpa using this
    subst hx
    obtain ⟨pre1, off, len, t', seg', h1, h2, h3⟩ := ih evs' er' ep' rfl ho hok (by simpa using hnc) (by simpa using hnf)
    refine ⟨.recv (received pre0).length (L - (received pre0).length) 0 [] :: .time t :: pre1, off, len, t', seg', by rw [h1]; simp, h2, ?_⟩
    have hlr : lastRecv last (.recv (received pre0).length (L - (received pre0).length) 0 [] :: .time t :: pre1) = lastRecv last pre1 := by
      rw [lastRecv, if_neg (by simp)]
    rw [hlr]; exact h3

/-- Received data fits in the buffer. -/
theorem received_le {evs : List (Ev PLog)} (h : EachEv (EvGood L) evs) : (received evs).length ≤ L := by
  refine snocInduction (Q := fun evs => EachEv (EvGood L) evs → (received evs).length ≤ L) (fun _ => Nat.zero_le _) ?_ evs h
  intro l a ih h
  have h1 : EachEv (EvGood L) l := fun pre e post hx => h pre e (post ++ [a]) (by rw [hx]; simp)
  have h2 := h l a [] rfl
  have := ih h1
  cases a with
  | recv off len ret data =>
    simp only [EvGood] at h2
    simp only [received_append, received, List.length_append, List.append_nil]
    omega
  | _ => simpa [received] using this

end CoreHttp

import Verif.Ref.Machine

/-! # A local condition on machines that implies the parser contract -/

namespace CoreHttp.Machine
open Spec

/-- In which phases a span may start. `strict`: a value is not resumed (there are no folded lines). -/
def startOk (strict : Bool) : SpanK → Phase → Prop
  | .status _, ph => ph = .line
  | .field, ph => ph = .hdrs ∨ ph = .value ∨ ph = .body ∨ ph = .tvalue
  | .value, ph => ph = .field ∨ ph = .tfield ∨ (strict = false ∧ (ph = .value ∨ ph = .tvalue))
  | .body, ph => ph = .body

/-- The phase after (a part of) a span was reported. -/
def afterSpan (k : SpanK) (ph : Phase) : Phase := ph.next (k.ev 0 0) .continue_

/-- The actions for a byte are allowed. `phase a`, `opened a`: phase and open span of the machine state (the phase is that before the span);
`started`: the open span starts at this byte; `late`: the span ended after this byte. -/
def ActOk {A : Type} (strict : Bool) (phase : A → Phase) (opened : A → Option SpanK) : MTree A → Phase → Option SpanK → Bool → Bool → Prop
  | .done a, ph, o, _, _ => phase a = ph ∧ opened a = o
  | .fail e, ph, o, _, _ => (ph ≠ .paused ∧ ph ≠ .stopped ∧ (e = .pausedUpgrade → ph = .complete ∧ o = none)) ∧ e ≠ .ok ∧ e ≠ .paused ∧ e ≠ .user ∧ e ≠ .invalidEofState
  | .act .messageBegin t, ph, o, st, lt => o = none ∧ (ph = .idle ∨ ph = .complete) ∧ ActOk strict phase opened t .line none st lt
  | .act (.spanStart k) t, ph, o, _, lt => o = none ∧ startOk strict k ph ∧ lt = false ∧ ActOk strict phase opened t ph (some k) true lt
  | .act .spanEnd t, ph, o, st, lt => lt = false ∧ ∃ k, o = some k ∧ (st = true → k ≠ .field) ∧ ActOk strict phase opened t (afterSpan k ph) none st lt
  | .act .spanEndIncl t, ph, o, st, _ => ∃ k, o = some k ∧ ActOk strict phase opened t (afterSpan k ph) none st true
  | .act (.statusComplete _) t, ph, o, st, lt => o = none ∧ ph = .line ∧ ActOk strict phase opened t .hdrs none st lt
  | .act .messageComplete t, ph, o, st, lt => o = none ∧ (ph = .body ∨ ph = .nobody ∨ ph = .tvalue) ∧ ActOk strict phase opened t .complete none st lt
  | .headers _ _ _ t1 t2, ph, o, st, lt => o = none ∧ lt = false ∧ (ph = .hdrs ∨ ph = .value) ∧ ActOk strict phase opened t1 .body none st true ∧
      ActOk strict phase opened t2 .nobody none st true

/-- The actions never end with this error. -/
def _root_.CoreHttp.MTree.Never {A : Type} (e : Errno) : MTree A → Prop
  | .done _ => True
  | .fail e' => e' ≠ e
  | .act _ t => t.Never e
  | .headers _ _ _ t1 t2 => t1.Never e ∧ t2.Never e

/-- The condition. -/
structure Ok (strict : Bool) (M : Machine) (phase : M.A → Phase) (opened : M.A → Option SpanK) : Prop where
  init : phase M.init = .idle ∧ opened M.init = none
  live : ∀ a, phase a ≠ .paused ∧ phase a ≠ .stopped
  start : ∀ a k, opened a = some k → startOk strict k (phase a)
  step : ∀ a c, ActOk strict phase opened (M.step a c) (phase a) (opened a) false false

/-- Positions during a run: `p0` is the phase before the open span, `ph` the phase according to what was reported. -/
def Pos (strict : Bool) (base dlen p : Nat) (p0 : Phase) (o : Option (SpanK × Nat)) (started late : Bool) (ph : Phase) (lo : Nat) : Prop :=
  match o with
  | none => ph = p0 ∧ lo ≤ base + p + (if late then 1 else 0)
  | some (k, s) => startOk strict k p0 ∧ late = false ∧ s ≤ p ∧ (s < dlen ∨ dlen = 0) ∧ (started = false → k = .field → s < p ∨ (ph = afterSpan k p0 ∧ s = 0 ∧ base = lo)) ∧
      ((ph = p0 ∧ lo ≤ base + s) ∨ (ph = afterSpan k p0 ∧ s = 0 ∧ base = lo))

/-- The relation between parser states and phases. -/
def SInv (strict : Bool) (M : Machine) (phase : M.A → Phase) (opened : M.A → Option SpanK) : St M.A → Phase → Nat → Nat → Prop
  | .live a none, ph, base, lo => opened a = none ∧ ph = phase a ∧ lo ≤ base
  | .live a (some k), ph, base, lo => opened a = some k ∧ startOk strict k (phase a) ∧ ph = afterSpan k (phase a) ∧ base = lo
  | .dead _, _, _, _ => False

theorem afterSpan_idem {k : SpanK} {ph : Phase} (h : startOk strict k ph) : (afterSpan k ph).next (k.ev 0 0) .continue_ = afterSpan k ph := by
  cases k <;> simp only [startOk] at h
  · subst h; rfl
  · rcases h with rfl | rfl | rfl | rfl <;> rfl
  · rcases h with rfl | rfl | ⟨_, rfl | rfl⟩ <;> rfl
  · subst h; rfl

theorem next_ev (k : SpanK) (ph : Phase) (a b : Nat) : ph.next (k.ev a b) .continue_ = ph.next (k.ev 0 0) .continue_ := by cases k <;> rfl

theorem next_user {k : SpanK} {ph : Phase} {a b : Nat} (h : RetOk (k.ev a b) .user) : ph.next (k.ev a b) .user = .stopped := by
  cases k <;> simp [RetOk, SpanK.ev] at h
  rfl

theorem endPos_ev (k : SpanK) (base lo a b : Nat) : endPos base lo (k.ev a b) = base + a + b := by cases k <;> rfl

theorem afterSpan_live {k : SpanK} {ph : Phase} (h : startOk strict k ph) : afterSpan k ph ≠ .paused ∧ afterSpan k ph ≠ .stopped := by
  cases k <;> simp only [startOk] at h
  · subst h; simp [afterSpan, SpanK.ev, Phase.next]
  · rcases h with rfl | rfl | rfl | rfl <;> decide
  · rcases h with rfl | rfl | ⟨_, rfl | rfl⟩ <;> decide
  · subst h; decide

theorem Pos.live {base dlen p : Nat} {p0 : Phase} {o : Option (SpanK × Nat)} {started late : Bool} {ph : Phase} {lo : Nat}
    (h : Pos strict base dlen p p0 o started late ph lo) (h0 : p0 ≠ .paused ∧ p0 ≠ .stopped) : ph ≠ .paused ∧ ph ≠ .stopped := by
  cases o with
  | none => rw [h.1]; exact h0
  | some ks =>
    obtain ⟨h1, _, _, _, _, h2 | h2⟩ := h
    · rw [h2.1]; exact h0
    · rw [h2.1]; exact afterSpan_live h1

variable {A : Type} {Inv : St A → Phase → Nat → Nat → Prop}

/-- Reporting a span. -/
theorem callSpan_ok {base dlen lo s p len : Nat} {k : SpanK} {p0 ph : Phase} {t : PTree (St A)} (h0 : startOk strict k p0) (h1 : s < dlen ∨ dlen = 0)
    (h2 : s + len ≤ dlen) (h3 : (ph = p0 ∧ lo ≤ base + s) ∨ (ph = afterSpan k p0 ∧ s = 0 ∧ base = lo))
    (h4 : k = .field → 0 < len ∨ (s = 0 ∧ base = lo ∧ ph = afterSpan k p0))
    (ht : TreeOk strict Inv base dlen t (afterSpan k p0) (base + s + len)) :
    TreeOk strict Inv base dlen (callSpan k s len p t) ph lo := by
  have hlo : lo ≤ base + s := by rcases h3 with h | h <;> omega
  refine ⟨?_, ?_⟩
  · cases k with
    | status code =>
      obtain rfl : p0 = .line := h0
      have : ph = .line := by rcases h3 with ⟨h, _⟩ | ⟨h, _⟩ <;> rw [h] <;> rfl
      exact ⟨this, hlo, h2, h1⟩
    | body =>
      obtain rfl : p0 = .body := h0
      have : ph = .body := by rcases h3 with ⟨h, _⟩ | ⟨h, _⟩ <;> rw [h] <;> rfl
      exact ⟨this, hlo, h2, h1⟩
    | field =>
      refine ⟨⟨hlo, h2, h1⟩, ?_⟩
      have haf : afterSpan .field p0 = .field ∨ afterSpan .field p0 = .tfield := by
        rcases h0 with rfl | rfl | rfl | rfl <;> simp [afterSpan, SpanK.ev, Phase.next]
      rcases h4 rfl with h | ⟨h, h', h''⟩
      · rcases h3 with ⟨h5, _⟩ | ⟨h5, h6, h7⟩
        · rw [h5]; exact .inl ⟨h0, h⟩
        · right; rw [h5]; exact ⟨haf, h6, h7⟩
      · right; rw [h'']; exact ⟨haf, h, h'⟩
    | value =>
      refine ⟨⟨hlo, h2, h1⟩, ?_⟩
      rcases h3 with ⟨h5, _⟩ | ⟨h5, h6, h7⟩
      · rw [h5]
        refine ⟨by rcases h0 with rfl | rfl | ⟨h9, rfl | rfl⟩ <;> simp, ?_⟩
        intro h8 h; rcases h0 with rfl | rfl | ⟨h9, rfl | rfl⟩ <;> simp_all
      · refine ⟨?_, fun _ _ => by omega⟩
        rw [h5]
        rcases h0 with rfl | rfl | ⟨h9, rfl | rfl⟩ <;> simp [afterSpan, SpanK.ev, Phase.next]
  · intro r hr
    dsimp only
    by_cases hu : r = .user
    · subst hu
      rw [if_pos rfl, next_user hr]
      simp [TreeOk, DoneOk]
    · have hc : r = .continue_ := by
        cases k with
        | value =>
          rcases hr with h | h
          · exact h
          · exact absurd h hu
        | _ => exact hr
      subst hc
      rw [if_neg hu, endPos_ev, next_ev]
      rcases h3 with ⟨h5, _⟩ | ⟨h5, _⟩
      · rw [h5]; exact ht
      · rw [h5, afterSpan_idem h0]; exact ht

/-- The actions for one byte. -/
theorem byteTree_ok {phase : A → Phase} {opened : A → Option SpanK} {base dlen p : Nat} (hp : p < dlen)
    {k : A → Option (SpanK × Nat) → PTree (St A)}
    (hk : ∀ a o ph lo, opened a = o.map Prod.fst → Pos strict base dlen (p + 1) (phase a) o false false ph lo → TreeOk strict Inv base dlen (k a o) ph lo)
    (t : MTree A) : ∀ (p0 : Phase) (o : Option (SpanK × Nat)) (started late : Bool) (ph : Phase) (lo : Nat),
      ActOk strict phase opened t p0 (o.map Prod.fst) started late → Pos strict base dlen p p0 o started late ph lo →
      TreeOk strict Inv base dlen (byteTree k p t o) ph lo := by
  induction t with
  | done a =>
    intro p0 o started late ph lo h hpos
    obtain ⟨rfl, ho⟩ := h
    refine hk a o ph lo ho ?_
    cases o with
    | none =>
      obtain ⟨h1, h2⟩ := hpos
      refine ⟨h1, ?_⟩
      cases late <;> simp at h2 ⊢ <;> omega
    | some ks =>
      obtain ⟨sk, s⟩ := ks
      obtain ⟨h1, h2, h3, h4, h5, h6⟩ := hpos
      exact ⟨h1, rfl, by omega, h4, fun _ _ => .inl (by omega), h6⟩
  | fail e =>
    intro p0 o started late ph lo h hpos
    obtain ⟨⟨h0, h0', h4⟩, h1, h2, h3, h5⟩ := h
    have hns : ph ≠ .paused ∧ ph ≠ .stopped := hpos.live ⟨h0, h0'⟩
    have hup : e = .pausedUpgrade → ph = .complete := by
      intro he
      obtain ⟨k1, k2⟩ := h4 he
      have ho : o = none := by cases o <;> simp_all
      subst ho
      exact hpos.1.trans k1
    simp [byteTree, TreeOk, DoneOk, h1, h2, h3, h5, hns]
    exact hup
  | act e t ih =>
    intro p0 o started late ph lo h hpos
    cases e with
    | messageBegin =>
      obtain ⟨h1, h2, h3⟩ := h
      have ho : o = none := by cases o <;> simp_all
      subst ho
      obtain ⟨rfl, h4⟩ := hpos
      refine ⟨h2, fun r hr => ?_⟩
      exact ih _ none started late _ _ h3 ⟨rfl, h4⟩
    | spanStart sk =>
      obtain ⟨h1, h2, rfl, h3⟩ := h
      have ho : o = none := by cases o <;> simp_all
      subst ho
      obtain ⟨rfl, h4⟩ := hpos
      exact ih _ (some (sk, p)) true false _ _ h3 ⟨h2, rfl, Nat.le_refl _, .inl hp, fun h => (by cases h), .inl ⟨rfl, by simpa using h4⟩⟩
    | spanEnd =>
      obtain ⟨rfl, sk, h1, h2, h3⟩ := h
      cases o with
      | none => cases h1
      | some ks =>
        obtain ⟨sk', s⟩ := ks
        obtain rfl : sk' = sk := by simpa using h1
        obtain ⟨q1, q2, q3, q4, q5, q6⟩ := hpos
        refine callSpan_ok q1 q4 (by omega) q6 ?_ ?_
        · intro hf
          cases started with
          | true => exact absurd hf (h2 rfl)
          | false =>
            rcases q5 rfl hf with h | ⟨h, h', h''⟩
            · left; omega
            · exact .inr ⟨h', h'', h⟩
        · exact ih _ none started false _ _ h3 ⟨rfl, by simp; omega⟩
    | spanEndIncl =>
      obtain ⟨sk, h1, h3⟩ := h
      cases o with
      | none => cases h1
      | some ks =>
        obtain ⟨sk', s⟩ := ks
        obtain rfl : sk' = sk := by simpa using h1
        obtain ⟨q1, q2, q3, q4, q5, q6⟩ := hpos
        refine callSpan_ok q1 q4 (by omega) q6 (fun _ => .inl (by omega)) ?_
        exact ih _ none started true _ _ h3 ⟨rfl, by simp; omega⟩
    | statusComplete code =>
      obtain ⟨h1, rfl, h3⟩ := h
      have ho : o = none := by cases o <;> simp_all
      subst ho
      obtain ⟨rfl, h4⟩ := hpos
      refine ⟨rfl, fun r hr => ?_⟩
      exact ih _ none started late _ _ h3 ⟨rfl, h4⟩
    | messageComplete =>
      obtain ⟨h1, h2, h3⟩ := h
      have ho : o = none := by cases o <;> simp_all
      subst ho
      obtain ⟨rfl, h4⟩ := hpos
      refine ⟨h2, fun r hr => ?_⟩
      exact ih _ none started late _ _ h3 ⟨rfl, h4⟩
  | headers cl cc ka t1 t2 ih1 ih2 =>
    intro p0 o started late ph lo h hpos
    obtain ⟨h1, rfl, h2, h3, h4⟩ := h
    have ho : o = none := by cases o <;> simp_all
    subst ho
    obtain ⟨rfl, h5⟩ := hpos
    simp at h5
    refine ⟨⟨h2, by omega, by omega, by omega⟩, fun r hr => ?_⟩
    cases r with
    | continue_ => exact ih1 _ none started true _ _ h3 ⟨rfl, by simp [endPos]; omega⟩
    | noBody => exact ih2 _ none started true _ _ h4 ⟨rfl, by simp [endPos]; omega⟩
    | pause => simp [TreeOk, DoneOk, Phase.next, endPos]
    | user => exact absurd rfl hr

theorem run_ok {M : Machine} {phase : M.A → Phase} {opened : M.A → Option SpanK} (hM : Ok strict M phase opened) {base dlen : Nat} (data : Bytes) :
    ∀ (p : Nat) (a : M.A) (o : Option (SpanK × Nat)) (ph : Phase) (lo : Nat), p + data.length = dlen → opened a = o.map Prod.fst →
      Pos strict base dlen p (phase a) o false false ph lo → TreeOk strict (SInv strict M phase opened) base dlen (M.run p data a o) ph lo := by
  induction data with
  | nil =>
    intro p a o ph lo hlen ho hpos
    simp only [List.length_nil, Nat.add_zero] at hlen
    have hlive := hM.live a
    cases o with
    | none =>
      obtain ⟨rfl, h2⟩ := hpos
      simp only [run, TreeOk, DoneOk]
      simp only [Bool.false_eq_true, if_false, Nat.add_zero] at h2
      refine ⟨fun _ => ⟨ho, rfl, by omega⟩, ?_⟩
      simp [hlive]
    | some ks =>
      obtain ⟨k, s⟩ := ks
      obtain ⟨q1, q2, q3, q4, q5, q6⟩ := hpos
      refine callSpan_ok q1 q4 (by omega) q6 (fun hf => ?_) ?_
      · rcases q5 rfl hf with h | ⟨h, h', h''⟩
        · left; omega
        · exact .inr ⟨h', h'', h⟩
      · simp only [TreeOk, DoneOk]
        refine ⟨fun _ => ⟨ho, q1, rfl, by omega⟩, ?_⟩
        have := afterSpan_live q1
        simp [this]
  | cons c cs ih =>
    intro p a o ph lo hlen ho hpos
    simp only [List.length_cons] at hlen
    have := hM.step a c
    rw [ho] at this
    refine byteTree_ok (phase := phase) (opened := opened) (by omega) ?_ _ _ _ _ _ _ _ this hpos
    intro a' o' ph' lo' h1 h2
    exact ih (p + 1) a' o' ph' lo' (by omega) h1 h2

/-- A machine meeting the local condition gives a parser honouring the contract. -/
theorem toParser_ok {M : Machine} {phase : M.A → Phase} {opened : M.A → Option SpanK} (hM : Ok strict M phase opened) : ParserOk strict M.toParser := by
  refine ⟨SInv strict M phase opened, ⟨hM.init.2, hM.init.1.symm, Nat.le_refl _⟩, ?_⟩
  intro s ph base lo data hs hlo
  match s, hs with
  | .live a none, ⟨h1, h2, h3⟩ => exact run_ok hM data 0 a none ph lo (by simp) h1 ⟨h2, by simpa using hlo⟩
  | .live a (some k), ⟨h1, h2, h3, h4⟩ =>
    refine run_ok hM data 0 a (some (k, 0)) ph lo (by simp) h1 ⟨h2, rfl, Nat.le_refl _, ?_, fun _ _ => .inr ⟨h3, rfl, h4⟩, .inr ⟨h3, rfl, h4⟩⟩
    omega

end CoreHttp.Machine

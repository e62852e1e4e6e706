import Verif.Lemmas.ReadHeader
import Verif.Lemmas.Feed

/-! # Looking up a header, compared with the headers a parser reports -/

namespace CoreHttp
open Spec

/-- A list of events that honours the contract, from phase `ph`. -/
def Chain (strict : Bool) (base dlen : Nat) : Phase → Nat → List PEv → Prop
  | _, _, [] => True
  | ph, lo, e :: es => EvOk strict base dlen ph lo e ∧ Chain strict base dlen (ph.next e (answers .noBody e)) (endPos base lo e) es

/-- The phase and position at the end. -/
def chainEnd (base : Nat) : Phase → Nat → List PEv → Phase × Nat
  | ph, lo, [] => (ph, lo)
  | ph, lo, e :: es => chainEnd base (ph.next e (answers .noBody e)) (endPos base lo e) es

theorem chain_append {strict : Bool} {base dlen : Nat} (es es' : List PEv) : ∀ {ph : Phase} {lo : Nat},
    Chain strict base dlen ph lo (es ++ es') ↔ Chain strict base dlen ph lo es ∧
      Chain strict base dlen (chainEnd base ph lo es).1 (chainEnd base ph lo es).2 es' := by
  induction es with
  | nil => intro ph lo; simp [Chain, chainEnd]
  | cons e es ih => intro ph lo; simp only [List.cons_append, Chain, chainEnd, ih, and_assoc]

theorem answers_noBody_ok (e : PEv) : RetOk e (answers .noBody e) := by cases e <;> simp [RetOk, answers]

theorem chain_of_tree {S : Type} {strict : Bool} {Inv : S → Phase → Nat → Nat → Prop} {base dlen : Nat} (t : PTree S) : ∀ (ph : Phase) (lo : Nat),
    TreeOk strict Inv base dlen t ph lo → Chain strict base dlen ph lo (t.run (answers .noBody)).1 := by
  induction t with
  | done er ep s => intro ph lo _; trivial
  | call e k ih => intro ph lo h; exact ⟨h.1, ih _ _ _ (h.2 _ (answers_noBody_ok e))⟩

/-- The pending header in the various phases. -/
def LookPend (ph : Phase) (v : View) : Prop :=
  (ph = .field → ∃ f, v.pending = some (f, none)) ∧ (ph = .value → ∃ f x, v.pending = some (f, some x)) ∧
    (ph ≠ .field → ph ≠ .value → v.pending = none)

/-- What is known along a chain. -/
structure LookInv (ph : Phase) (lo : Nat) (v : View) : Prop where
  phase : lookPhase ph
  pos : ph = .field ∨ ph = .value → 0 < lo
  pend : LookPend ph v

theorem lookStep {dlen : Nat} {ph : Phase} {lo : Nat} {v : View} {e : PEv} {o : PObs} (h : LookInv ph lo v) (he : EvOk true 0 dlen ph lo e) (ho : o.ev = e) :
    LookInv (ph.next e (answers .noBody e)) (endPos 0 lo e) (v.step o) ∧ v.flush.headers <+: (v.step o).flush.headers := by
  obtain ⟨h1, h2, h3, h4, h5⟩ := h
  cases e with
  | messageBegin =>
    have hp : ph ≠ .field ∧ ph ≠ .value := by rcases he with rfl | rfl <;> simp
    have hn := h5 hp.1 hp.2
    refine ⟨⟨trivial, by simp [Phase.next], by simp [LookPend, Phase.next, View.step, ho, hn]⟩, ?_⟩
    simp [View.step, ho, View.flush, hn]
  | status off len code =>
    have hp : ph ≠ .field ∧ ph ≠ .value := by rw [he.1]; simp
    have hn := h5 hp.1 hp.2
    refine ⟨⟨trivial, by simp [Phase.next], by simp [LookPend, Phase.next, View.step, ho]⟩, ?_⟩
    simp [View.step, ho, View.flush, hn]
  | statusComplete code =>
    have hp : ph ≠ .field ∧ ph ≠ .value := by rw [show ph = .line from he]; simp
    have hn := h5 hp.1 hp.2
    refine ⟨⟨trivial, by simp [Phase.next], by simp [LookPend, Phase.next, View.step, ho]⟩, ?_⟩
    simp [View.step, ho, View.flush, hn]
  | headersComplete at_ cl cc ka =>
    refine ⟨⟨trivial, by simp [Phase.next, answers], ?_⟩, ?_⟩
    · have hf : v.flush.pending = none := by
        rcases he.1 with rfl | rfl
        · simp [View.flush, h5]
        · obtain ⟨f, x, hx⟩ := h4 rfl
          simp [View.flush, hx]
      simp [LookPend, Phase.next, answers, View.step, ho, hf]
    · have hf : v.flush.pending = none := by
        rcases he.1 with rfl | rfl
        · simp [View.flush, h5]
        · obtain ⟨f, x, hx⟩ := h4 rfl
          simp [View.flush, hx]
      have : (v.step o).pending = none := by simp [View.step, ho, hf]
      have h7 : (v.step o).flush = v.step o := by unfold View.flush; rw [this]
      rw [h7]
      simp [View.step, ho]
  | body off len =>
    have := he.1
    subst this; exact h1.elim
  | messageComplete =>
    have hp : ph ≠ .field ∧ ph ≠ .value := by rcases he with rfl | rfl | rfl <;> simp
    have hn := h5 hp.1 hp.2
    refine ⟨⟨trivial, by simp [Phase.next], by simp [LookPend, Phase.next, View.step, ho, hn]⟩, ?_⟩
    simp [View.step, ho, View.flush, hn]
  | headerField off len =>
    obtain ⟨⟨hs1, hs2, hs3⟩, hcase⟩ := he
    have hmain : (ph = .hdrs ∨ ph = .value) ∧ 0 < len := by
      rcases hcase with ⟨hp, hl⟩ | ⟨hp, q1, q2⟩
      · refine ⟨?_, hl⟩
        rcases hp with hp | hp | hp | hp
        · exact .inl hp
        · exact .inr hp
        · subst hp; exact h1.elim
        · subst hp; exact h1.elim
      · rcases hp with hp | hp
        · have := h2 (.inl hp); omega
        · subst hp; exact h1.elim
    have hnext : ph.next (.headerField off len) .continue_ = .field := by rcases hmain.1 with rfl | rfl <;> simp [Phase.next]
    have hf : v.flush.pending = none := by
      rcases hmain.1 with rfl | rfl
      · simp [View.flush, h5]
      · obtain ⟨f, x, hx⟩ := h4 rfl
        simp [View.flush, hx]
    have hpd : (v.step o).pending = some (o.data, none) := by simp [View.step, ho, hf]
    have hfl : (v.step o).flush.headers = v.flush.headers := by
      unfold View.flush
      rw [hpd]
      simp only [View.step, ho]
      rfl
    simp only [answers]
    rw [hnext, hfl]
    exact ⟨⟨trivial, fun _ => by simp only [endPos]; omega, fun _ => ⟨_, hpd⟩, (by simp), by simp⟩, List.prefix_refl _⟩
  | headerValue off len =>
    obtain ⟨⟨hs1, hs2, hs3⟩, hcase, hst⟩ := he
    have hmain : ph = .field := by
      rcases hcase with hp | hp | hp | hp
      · exact hp
      · have := hst rfl (.inl hp)
        have := h2 (.inr hp)
        omega
      · subst hp; exact h1.elim
      · subst hp; exact h1.elim
    subst hmain
    obtain ⟨f, hf⟩ := h3 rfl
    have hpd : (v.step o).pending = some (f, some o.data) := by simp [View.step, ho, hf]
    refine ⟨⟨trivial, fun _ => ?_, (by simp [Phase.next, answers]), (fun _ => ⟨_, _, hpd⟩), by simp [Phase.next, answers]⟩, ?_⟩
    · have := h2 (.inl rfl); simp only [endPos]; omega
    · have : v.flush = v := by unfold View.flush; rw [hf]
      rw [this]
      unfold View.flush
      rw [hpd]
      simp [View.step, ho]

theorem lookChain {dlen : Nat} (es : List PEv) : ∀ (os : List PObs) (ph : Phase) (lo : Nat) (v : View), os.map PObs.ev = es → LookInv ph lo v →
    Chain true 0 dlen ph lo es →
    LookInv (chainEnd 0 ph lo es).1 (chainEnd 0 ph lo es).2 (os.foldl View.step v) ∧ v.flush.headers <+: (os.foldl View.step v).flush.headers := by
  induction es with
  | nil =>
    intro os ph lo v ho h _
    obtain rfl := List.map_eq_nil_iff.mp ho
    exact ⟨h, List.prefix_refl _⟩
  | cons e es ih =>
    intro os ph lo v ho h hc
    cases os with
    | nil => cases ho
    | cons o os =>
      rw [List.map_cons, List.cons.injEq] at ho
      obtain ⟨q1, q2⟩ := lookStep h hc.1 ho.1
      obtain ⟨q3, q4⟩ := ih os _ _ _ ho.2 q1 hc.2
      exact ⟨q3, q2.trans q4⟩

/-- Is the last thing seen a field with this name, without a value? -/
def dangling (name : Bytes) (v : View) : Prop := ∃ f, v.pending = some (f, none) ∧ sameName name f

open Classical in
/-- The search and the headers. -/
theorem scan_view {name : Bytes} {dlen : Nat} (es : List PEv) : ∀ (os : List PObs) (ph : Phase) (lo : Nat) (v : View) (ff : Bool), os.map PObs.ev = es →
    LookInv ph lo v → Chain true 0 dlen ph lo es → (ff = true ↔ dangling name v) →
    (match scan name ff os with
     | (_, some o) => ∃ mid f c post, (os.foldl View.step v).flush.headers = v.flush.headers ++ mid ++ (f, o.data, c) :: post ∧ sameName name f ∧
        ∀ x ∈ mid, ¬ sameName name x.1
     | (ff', none) => (ff' = true ↔ dangling name (os.foldl View.step v)) ∧ ∃ mid, (os.foldl View.step v).flush.headers = v.flush.headers ++ mid ∧
        ∀ x ∈ mid, ¬ sameName name x.1) := by
  induction es with
  | nil =>
    intro os ph lo v ff ho h hc hff
    obtain rfl := List.map_eq_nil_iff.mp ho
    exact ⟨hff, [], by simp, by simp⟩
  | cons e es ih =>
    intro os ph lo v ff ho h hc hff
    cases os with
    | nil => cases ho
    | cons o os =>
      rw [List.map_cons, List.cons.injEq] at ho
      obtain ⟨q1, q2⟩ := lookStep h hc.1 ho.1
      -- events that add no header
      have same : (v.step o).flush.headers = v.flush.headers → ∀ ff', (ff' = true ↔ dangling name (v.step o)) → scan name ff (o :: os) = scan name ff' os →
          (match scan name ff (o :: os) with
           | (_, some o') => ∃ mid f c post, ((o :: os).foldl View.step v).flush.headers = v.flush.headers ++ mid ++ (f, o'.data, c) :: post ∧ sameName name f ∧
              ∀ x ∈ mid, ¬ sameName name x.1
           | (ff', none) => (ff' = true ↔ dangling name ((o :: os).foldl View.step v)) ∧ ∃ mid, ((o :: os).foldl View.step v).flush.headers = v.flush.headers ++ mid ∧
              ∀ x ∈ mid, ¬ sameName name x.1) := by
        intro q3 ff' q4 q5
        have := ih os _ _ _ ff' ho.2 q1 hc.2 q4
        rw [q5, ← q3]
        exact this
      have noField : ph ≠ .field → ff = false ∧ ¬ dangling name v := by
        intro hp
        have : ¬ dangling name v := by
          rintro ⟨f, hf, _⟩
          by_cases hv : ph = .value
          · obtain ⟨f', x, hx⟩ := h.pend.2.1 hv
            rw [hf] at hx; cases hx
          · rw [h.pend.2.2 hp hv] at hf; cases hf
        exact ⟨by rw [← Bool.not_eq_true]; exact fun hh => this (hff.mp hh), this⟩
      have noDang : ph.next e (answers .noBody e) ≠ .field → ¬ dangling name (v.step o) := by
        intro hp
        rintro ⟨f, hf, _⟩
        by_cases hv : ph.next e (answers .noBody e) = .value
        · obtain ⟨f', x, hx⟩ := q1.pend.2.1 hv
          rw [hf] at hx; cases hx
        · rw [q1.pend.2.2 hp hv] at hf; cases hf
      have falseIff : ¬ dangling name (v.step o) → (false = true ↔ dangling name (v.step o)) := fun hh => ⟨nofun, fun h0 => absurd h0 hh⟩
      have hev := ho.1
      cases e with
      | messageBegin =>
        have hp : ph ≠ .field ∧ ph ≠ .value := by rcases hc.1 with hp | hp <;> simp [hp]
        obtain ⟨rfl, _⟩ := noField hp.1
        refine same ?_ false (falseIff (noDang (by simp [Phase.next]))) (by simp [scan, hev])
        simp [View.step, hev, View.flush, h.pend.2.2 hp.1 hp.2]
      | status off len code =>
        have hp : ph ≠ .field ∧ ph ≠ .value := by rw [hc.1.1]; simp
        obtain ⟨rfl, _⟩ := noField hp.1
        refine same ?_ false (falseIff (noDang (by simp [Phase.next]))) (by simp [scan, hev])
        simp [View.step, hev, View.flush, h.pend.2.2 hp.1 hp.2]
      | statusComplete code =>
        have hp : ph ≠ .field ∧ ph ≠ .value := by rw [show ph = .line from hc.1]; simp
        obtain ⟨rfl, _⟩ := noField hp.1
        refine same ?_ false (falseIff (noDang (by simp [Phase.next]))) (by simp [scan, hev])
        simp [View.step, hev, View.flush, h.pend.2.2 hp.1 hp.2]
      | headersComplete at_ cl cc ka =>
        have hp : ph ≠ .field := by rcases hc.1.1 with hp | hp <;> simp [hp]
        obtain ⟨rfl, _⟩ := noField hp
        have hf : v.flush.pending = none := by
          rcases hc.1.1 with hp | hp
          · simp [View.flush, h.pend.2.2 (by simp [hp]) (by simp [hp])]
          · obtain ⟨f, x, hx⟩ := h.pend.2.1 hp
            simp [View.flush, hx]
        refine same ?_ false (falseIff (noDang (by simp [Phase.next, answers]))) (by simp [scan, hev])
        have : (v.step o).pending = none := by simp [View.step, hev, hf]
        have h7 : (v.step o).flush = v.step o := by unfold View.flush; rw [this]
        rw [h7]
        simp [View.step, hev]
      | body off len =>
        have := hc.1.1
        subst this; exact h.phase.elim
      | messageComplete =>
        have hp : ph ≠ .field ∧ ph ≠ .value := by rcases hc.1 with hp | hp | hp <;> simp [hp]
        obtain ⟨rfl, _⟩ := noField hp.1
        refine same ?_ false (falseIff (noDang (by simp [Phase.next]))) (by simp [scan, hev])
        simp [View.step, hev, View.flush, h.pend.2.2 hp.1 hp.2]
      | headerField off len =>
        have hf : v.flush.pending = none := by
          by_cases hv : ph = .value
          · obtain ⟨f, x, hx⟩ := h.pend.2.1 hv
            simp [View.flush, hx]
          · by_cases hp : ph = .field
            · rcases hc.1.2 with ⟨q, _⟩ | ⟨_, q5, q6⟩
              · subst hp; simp at q
              · have := h.pos (.inl hp); omega
            · simp [View.flush, h.pend.2.2 hp hv]
        have hpd : (v.step o).pending = some (o.data, none) := by simp [View.step, hev, hf]
        refine same ?_ (decide (sameName name o.data)) ?_ (by simp [scan, hev])
        · unfold View.flush
          rw [hpd]
          simp only [View.step, hev]
          rfl
        · rw [decide_eq_true_iff]
          unfold dangling
          rw [hpd]
          constructor
          · intro hh; exact ⟨_, rfl, hh⟩
          · rintro ⟨f, hh, q⟩; cases hh; exact q
      | headerValue off len =>
        have hph : ph = .field := by
          rcases hc.1.2.1 with hp | hp | hp | hp
          · exact hp
          · have := hc.1.2.2 rfl (.inl hp)
            have := h.pos (.inr hp)
            omega
          · subst hp; exact h.phase.elim
          · subst hp; exact h.phase.elim
        obtain ⟨f, hf⟩ := h.pend.1 hph
        have hpd : (v.step o).pending = some (f, some o.data) := by simp [View.step, hev, hf]
        have hadd : (v.step o).flush.headers = v.flush.headers ++ [(f, o.data, v.statusCode)] := by
          have : v.flush = v := by unfold View.flush; rw [hf]
          rw [this]
          unfold View.flush
          rw [hpd]
          simp [View.step, hev]
        have hd : dangling name v ↔ sameName name f := by
          unfold dangling
          rw [hf]
          constructor
          · rintro ⟨f', hh, q⟩; cases hh; exact q
          · intro hh; exact ⟨_, rfl, hh⟩
        by_cases hff2 : ff = true
        · have hsn := hd.mp (hff.mp hff2)
          have hs : scan name ff (o :: os) = (true, some o) := by simp [scan, hev, hff2]
          rw [hs]
          obtain ⟨post, hpost⟩ := (lookChain es os _ _ _ ho.2 q1 hc.2).2
          refine ⟨[], f, v.statusCode, post, ?_, hsn, by simp⟩
          rw [List.foldl_cons, ← hpost, hadd]
          simp
        · have hff3 : ff = false := by simpa using hff2
          have hns : ¬ sameName name f := fun hh => hff2 (hff.mpr (hd.mpr hh))
          have hs : scan name ff (o :: os) = scan name ff os := by simp [scan, hev, hff3]
          have key := ih os _ _ _ false ho.2 q1 hc.2 (falseIff (noDang (by simp [Phase.next, answers, hph])))
          rw [hs, hff3]
          rw [hadd] at key
          have e1 : (o :: os).foldl View.step v = os.foldl View.step (v.step o) := rfl
          rw [e1]
          revert key
          split
          · rintro ⟨mid, f', c, post, k1, k2, k3⟩
            refine ⟨(f, o.data, v.statusCode) :: mid, f', c, post, by rw [k1]; simp, k2, ?_⟩
            intro x hx
            rcases List.mem_cons.mp hx with rfl | hx
            · exact hns
            · exact k3 x hx
          · rintro ⟨k0, mid, k1, k3⟩
            refine ⟨k0, (f, o.data, v.statusCode) :: mid, by rw [k1]; simp, ?_⟩
            intro x hx
            rcases List.mem_cons.mp hx with rfl | hx
            · exact hns
            · exact k3 x hx

end CoreHttp

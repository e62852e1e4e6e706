import Verif.Ref.MachineOk
import Verif.Lemmas.Feed

/-! # The meaning of what a byte-at-a-time parser reports, byte by byte; it does not depend on how the stream is cut -/

namespace CoreHttp.Machine
open Spec

/-- A fragment of a span, without location. -/
def frag (k : SpanK) (d : Bytes) : PObs := ⟨k.ev 0 0, 0, d⟩

/-- The view after the actions for byte `c` at position `n` of the stream: the bytes of an open span count immediately. -/
def absTree {A : Type} (hr : CbRet) (n : Nat) (c : UInt8) : MTree A → View → Option SpanK → View × St A
  | .done a, v, none => (v, .live a none)
  | .done a, v, some k => (v.step (frag k [c]), .live a (some k))
  | .fail e, v, _ => (v, .dead e)
  | .act .messageBegin t, v, o => absTree hr n c t (v.step ⟨.messageBegin, 0, []⟩) o
  | .act (.spanStart k) t, v, _ => absTree hr n c t (v.step (frag k [])) (some k)
  | .act .spanEnd t, v, _ => absTree hr n c t v none
  | .act .spanEndIncl t, v, some k => absTree hr n c t (v.step (frag k [c])) none
  | .act .spanEndIncl t, v, none => absTree hr n c t v none
  | .act (.statusComplete code) t, v, o => absTree hr n c t (v.step ⟨.statusComplete code, 0, []⟩) o
  | .act .messageComplete t, v, o => absTree hr n c t (v.step ⟨.messageComplete, 0, []⟩) o
  | .headers cl cc ka t1 t2, v, o =>
    match hr with
    | .pause => (v.step ⟨.headersComplete 0 cl cc ka, n + 1, []⟩, .dead .paused)
    | .user => (v.step ⟨.headersComplete 0 cl cc ka, n + 1, []⟩, .dead .user)
    | .noBody => absTree hr n c t2 (v.step ⟨.headersComplete 0 cl cc ka, n + 1, []⟩) o
    | .continue_ => absTree hr n c t1 (v.step ⟨.headersComplete 0 cl cc ka, n + 1, []⟩) o

/-- One byte. -/
def absStep (M : Machine) (hr : CbRet) (n : Nat) (x : View × St M.A) (c : UInt8) : View × St M.A :=
  match x.2 with
  | .live a o => absTree hr n c (M.step a c) x.1 o
  | .dead e => (x.1, .dead e)

/-- A byte string, located at position `n` of the stream. -/
def absRun (M : Machine) (hr : CbRet) : Nat → View × St M.A → Bytes → View × St M.A
  | _, x, [] => x
  | n, x, c :: cs => absRun M hr (n + 1) (absStep M hr n x c) cs

theorem absRun_append (M : Machine) (hr : CbRet) (n : Nat) (x : View × St M.A) (cs ds : Bytes) :
    absRun M hr n x (cs ++ ds) = absRun M hr (n + cs.length) (absRun M hr n x cs) ds := by
  induction cs generalizing n x with
  | nil => rfl
  | cons c cs ih =>
    simp only [List.cons_append, absRun, ih, List.length_cons]
    congr 1; omega

theorem absRun_dead (M : Machine) (hr : CbRet) (n : Nat) (v : View) (e : Errno) (cs : Bytes) :
    absRun M hr n (v, .dead e) cs = (v, .dead e) := by
  induction cs generalizing n with
  | nil => rfl
  | cons c cs ih => exact ih (n + 1)

theorem step_ev {v : View} {k : SpanK} {a b l : Nat} {d : Bytes} : v.step ⟨k.ev a b, l, d⟩ = v.step (frag k d) := by cases k <;> rfl

theorem step_hc {v : View} {a l : Nat} {cl : UInt64} {cc ka : Bool} {d : Bytes} :
    v.step ⟨.headersComplete a cl cc ka, l, d⟩ = v.step ⟨.headersComplete 0 cl cc ka, l, []⟩ := rfl

theorem frag_append (v : View) (k : SpanK) (d d' : Bytes) : (v.step (frag k d)).step (frag k d') = v.step (frag k (d ++ d')) := by
  cases k with
  | status code => rfl
  | body => simp [View.step, frag, SpanK.ev]
  | value =>
    simp only [View.step, frag, SpanK.ev]
    cases hp : v.pending with
    | none => rfl
    | some fx =>
      obtain ⟨f, x⟩ := fx
      cases x <;> simp
  | field =>
    simp only [View.step, frag, SpanK.ev]
    cases hp : v.flush.pending with
    | none => simp [View.flush]
    | some fx =>
      obtain ⟨f, x⟩ := fx
      have : x = none := by
        unfold View.flush at hp
        split at hp
        · cases hp
        · rename_i h
          cases x with
          | none => rfl
          | some x => exact absurd hp (h f x)
      subst this
      simp [View.flush]

/-- What a tree of callbacks means, from view `v`. -/
def sem {S : Type} (pol : PEv → CbRet) (base : Nat) (data : Bytes) (t : PTree S) (v : View) : View × Errno × S :=
  (((t.run pol).1.map (·.observe base data)).foldl View.step v, (t.run pol).2.1, (t.run pol).2.2.2)

theorem sem_call {S : Type} (pol : PEv → CbRet) (base : Nat) (data : Bytes) (e : PEv) (k : CbRet → PTree S) (v : View) :
    sem pol base data (.call e k) v = sem pol base data (k (pol e)) (v.step (e.observe base data)) := by
  simp [sem, PTree.run]

theorem answers_ev (hr : CbRet) (k : SpanK) (a b : Nat) : answers hr (k.ev a b) = .continue_ := by cases k <;> rfl

theorem sem_callSpan {A : Type} (hr : CbRet) (base : Nat) (data : Bytes) (k : SpanK) (s len p : Nat) (t : PTree (St A)) (v : View) :
    sem (answers hr) base data (callSpan k s len p t) v = sem (answers hr) base data t (v.step (frag k ((data.drop s).take len))) := by
  unfold callSpan
  rw [sem_call, answers_ev]
  simp only [reduceCtorEq, if_false]
  congr 1
  unfold PEv.observe
  rw [step_ev]
  cases k <;> rfl

/-- The view `v0` of what was reported and the view `v` that counts the open span up to position `p`. -/
def Rel (data : Bytes) (p : Nat) (v0 : View) : Option (SpanK × Nat) → View → Prop
  | none, v => v0 = v
  | some (k, s), v => s ≤ p ∧ v0.step (frag k ((data.drop s).take (p - s))) = v

theorem take_succ_drop {data : Bytes} {s p : Nat} {c : UInt8} (hs : s ≤ p) (hc : data[p]? = some c) :
    (data.drop s).take (p + 1 - s) = (data.drop s).take (p - s) ++ [c] := by
  rw [show p + 1 - s = (p - s) + 1 by omega, List.take_add_one, List.getElem?_drop, show s + (p - s) = p by omega, hc]
  rfl

variable {A : Type} {phase : A → Phase} {opened : A → Option SpanK}

theorem byteTree_view {hr : CbRet} {base p : Nat} {data : Bytes} {c : UInt8} (hc : data[p]? = some c) {k : A → Option (SpanK × Nat) → PTree (St A)}
    (t : MTree A) : ∀ (p0 : Phase) (o : Option (SpanK × Nat)) (started late : Bool) (v0 v : View),
      ActOk strict phase opened t p0 (o.map Prod.fst) started late → Rel data p v0 o v →
      (∃ v' a o' v0', absTree hr (base + p) c t v (o.map Prod.fst) = (v', .live a (o'.map Prod.fst)) ∧ opened a = o'.map Prod.fst ∧
        Rel data (p + 1) v0' o' v' ∧ sem (answers hr) base data (byteTree k p t o) v0 = sem (answers hr) base data (k a o') v0') ∨
      (∃ v' e v0', absTree hr (base + p) c t v (o.map Prod.fst) = (v', .dead e) ∧ e ≠ .ok ∧
        sem (answers hr) base data (byteTree k p t o) v0 = (v0', e, .dead e) ∧ (e = .paused ∨ e = .pausedUpgrade → v0' = v')) := by
  induction t with
  | done a =>
    intro p0 o started late v0 v h hrel
    obtain ⟨_, ho⟩ := h
    left
    cases o with
    | none => exact ⟨v, a, none, v0, rfl, ho, hrel, rfl⟩
    | some ks =>
      obtain ⟨sk, s⟩ := ks
      obtain ⟨h1, h2⟩ := hrel
      refine ⟨_, a, some (sk, s), v0, rfl, ho, ⟨by omega, ?_⟩, rfl⟩
      rw [take_succ_drop h1 hc, ← frag_append, h2]
  | fail e =>
    intro p0 o started late v0 v h hrel
    right
    obtain ⟨⟨_, _, h3⟩, h1, h2, _⟩ := h
    refine ⟨v, e, v0, rfl, h1, rfl, fun h => ?_⟩
    rcases h with h | h
    · exact absurd h h2
    · have ho : o = none := by have := (h3 h).2; cases o <;> simp_all
      subst ho
      exact hrel
  | act e t ih =>
    intro p0 o started late v0 v h hrel
    cases e with
    | messageBegin =>
      obtain ⟨h1, h2, h3⟩ := h
      have ho : o = none := by cases o <;> simp_all
      subst ho
      obtain rfl : v0 = v := hrel
      simp only [byteTree, sem_call, absTree]
      exact ih _ none started late _ _ h3 rfl
    | spanStart sk =>
      obtain ⟨h1, h2, rfl, h3⟩ := h
      have ho : o = none := by cases o <;> simp_all
      subst ho
      obtain rfl : v0 = v := hrel
      simp only [byteTree, absTree]
      refine ih _ (some (sk, p)) true false v0 _ h3 ⟨Nat.le_refl _, ?_⟩
      simp
    | spanEnd =>
      obtain ⟨rfl, sk, h1, h2, h3⟩ := h
      cases o with
      | none => cases h1
      | some ks =>
        obtain ⟨sk', s⟩ := ks
        obtain rfl : sk' = sk := by simpa using h1
        obtain ⟨q1, q2⟩ := hrel
        simp only [byteTree, sem_callSpan, absTree, q2]
        exact ih _ none started false _ _ h3 rfl
    | spanEndIncl =>
      obtain ⟨sk, h1, h3⟩ := h
      cases o with
      | none => cases h1
      | some ks =>
        obtain ⟨sk', s⟩ := ks
        obtain rfl : sk' = sk := by simpa using h1
        obtain ⟨q1, q2⟩ := hrel
        simp only [byteTree, sem_callSpan, absTree, take_succ_drop q1 hc, ← frag_append, q2, Option.map_some]
        exact ih _ none started true _ _ h3 rfl
    | statusComplete code =>
      obtain ⟨h1, rfl, h3⟩ := h
      have ho : o = none := by cases o <;> simp_all
      subst ho
      obtain rfl : v0 = v := hrel
      simp only [byteTree, sem_call, absTree]
      exact ih _ none started late _ _ h3 rfl
    | messageComplete =>
      obtain ⟨h1, h2, h3⟩ := h
      have ho : o = none := by cases o <;> simp_all
      subst ho
      obtain rfl : v0 = v := hrel
      simp only [byteTree, sem_call, absTree]
      exact ih _ none started late _ _ h3 rfl
  | headers cl cc ka t1 t2 ih1 ih2 =>
    intro p0 o started late v0 v h hrel
    obtain ⟨h1, rfl, h2, h3, h4⟩ := h
    have ho : o = none := by cases o <;> simp_all
    subst ho
    obtain rfl : v0 = v := hrel
    simp only [byteTree, sem_call, absTree, answers]
    cases hr with
    | continue_ => exact ih1 _ none started true _ _ h3 rfl
    | noBody => exact ih2 _ none started true _ _ h4 rfl
    | pause => right; exact ⟨_, .paused, _, rfl, by simp, rfl, fun _ => rfl⟩
    | user => right; exact ⟨_, .user, _, rfl, by simp, rfl, fun h => by rcases h with h | h <;> cases h⟩

/-- Reading data from position `p` on. -/
theorem run_view {M : Machine} {phase : M.A → Phase} {opened : M.A → Option SpanK} (hM : Ok strict M phase opened) {hr : CbRet} {base : Nat} {data : Bytes}
    (rest : Bytes) : ∀ (p : Nat) (a : M.A) (o : Option (SpanK × Nat)) (v0 v : View), p ≤ data.length → data.drop p = rest →
      opened a = o.map Prod.fst → Rel data p v0 o v →
      (∃ v' a' o', absRun M hr (base + p) (v, .live a (o.map Prod.fst)) rest = (v', .live a' o') ∧ opened a' = o' ∧
        (∀ k, o' = some k → v'.step (frag k []) = v') ∧ sem (answers hr) base data (M.run p rest a o) v0 = (v', .ok, .live a' o')) ∨
      (∃ v' e v0', absRun M hr (base + p) (v, .live a (o.map Prod.fst)) rest = (v', .dead e) ∧ e ≠ .ok ∧
        sem (answers hr) base data (M.run p rest a o) v0 = (v0', e, .dead e) ∧ (e = .paused ∨ e = .pausedUpgrade → v0' = v')) := by
  induction rest with
  | nil =>
    intro p a o v0 v hp hrest ho hrel
    left
    cases o with
    | none =>
      obtain rfl : v0 = v := hrel
      exact ⟨v0, a, none, rfl, ho, (by intro k h; cases h), rfl⟩
    | some ks =>
      obtain ⟨k, s⟩ := ks
      obtain ⟨h1, h2⟩ := hrel
      refine ⟨v, a, some k, rfl, ho, ?_, ?_⟩
      · intro k' hk
        cases hk
        rw [← h2, frag_append, List.append_nil]
      · simp only [run, sem_callSpan, h2]
        rfl
  | cons c cs ih =>
    intro p a o v0 v hp hrest ho hrel
    have hc : data[p]? = some c := by
      have : (data.drop p)[0]? = some c := by rw [hrest]; rfl
      simpa using this
    have hlt : p < data.length := by
      rcases Nat.lt_or_ge p data.length with h | h
      · exact h
      · rw [List.getElem?_eq_none h] at hc; cases hc
    have hst := hM.step a c
    rw [ho] at hst
    have hrun : ∀ x, absRun M hr (base + p) (v, .live a (o.map Prod.fst)) (c :: cs) = x ↔
        absRun M hr (base + (p + 1)) (absTree hr (base + p) c (M.step a c) v (o.map Prod.fst)) cs = x := fun x => Iff.rfl
    simp only [hrun]
    rcases byteTree_view (hr := hr) (base := base) (k := fun a o => M.run (p + 1) cs a o) hc (M.step a c) _ o _ _ v0 v hst hrel with
      ⟨v', a', o', v0', e1, e2, e3, e4⟩ | ⟨v', e, v0', e1, e2, e3, e4⟩
    · rw [e1]
      simp only [run, e4]
      have hd : data.drop (p + 1) = cs := by
        have := congrArg (List.drop 1) hrest
        simpa [List.drop_drop] using this
      exact ih (p + 1) a' o' v0' v' (by omega) hd e2 e3
    · right
      rw [e1, absRun_dead]
      simp only [run]
      exact ⟨v', e, v0', rfl, e2, e3, e4⟩

theorem view_append (os os' : List PObs) : view (os ++ os') = os'.foldl View.step (view os) := by simp [view]

/-- Feeding a machine, piece by piece. -/
theorem feed_view {M : Machine} {phase : M.A → Phase} {opened : M.A → Option SpanK} (hM : Ok strict M phase opened) (hr : CbRet) (ds : List Bytes) :
    (∃ v a o, absRun M hr 0 (View.empty, .live M.init none) ds.flatten = (v, .live a o) ∧ opened a = o ∧
      (∀ k, o = some k → v.step (frag k []) = v) ∧ view (feedAll M.toParser (answers hr) ds).1 = v ∧
      (feedAll M.toParser (answers hr) ds).2.2 = (.live a o, .ok)) ∨
    (∃ v e, absRun M hr 0 (View.empty, .live M.init none) ds.flatten = (v, .dead e) ∧ e ≠ .ok ∧
      (e = .paused ∨ e = .pausedUpgrade → view (feedAll M.toParser (answers hr) ds).1 = v) ∧ (feedAll M.toParser (answers hr) ds).2.2 = (.dead e, e)) := by
  have key : ∀ (l : List Bytes), (∃ v a o, absRun M hr 0 (View.empty, .live M.init none) l.reverse.flatten = (v, .live a o) ∧ opened a = o ∧
      (∀ k, o = some k → v.step (frag k []) = v) ∧ view (feedAll M.toParser (answers hr) l.reverse).1 = v ∧
      (feedAll M.toParser (answers hr) l.reverse).2.2 = (.live a o, .ok)) ∨
    (∃ v e, absRun M hr 0 (View.empty, .live M.init none) l.reverse.flatten = (v, .dead e) ∧ e ≠ .ok ∧
      (e = .paused ∨ e = .pausedUpgrade → view (feedAll M.toParser (answers hr) l.reverse).1 = v) ∧ (feedAll M.toParser (answers hr) l.reverse).2.2 = (.dead e, e)) := by
    intro l
    induction l with
    | nil => exact .inl ⟨View.empty, M.init, none, rfl, hM.init.2, (by intro k h; cases h), rfl, rfl⟩
    | cons d ds ih =>
      rw [List.reverse_cons]
      generalize ds.reverse = ds' at ih ⊢
      have hfa : feedAll M.toParser (answers hr) (ds' ++ [d]) = feedStep M.toParser (answers hr) (feedAll M.toParser (answers hr) ds') d := by
        simp [feedAll]
      rw [hfa, List.flatten_append, absRun_append, List.flatten_singleton]
      have hpos := feedAll_pos M.toParser (answers hr) ds'
      rw [Nat.zero_add, ← hpos]
      generalize feedAll M.toParser (answers hr) ds' = acc at ih ⊢
      obtain ⟨os, n, s, er⟩ := acc
      rcases ih with ⟨v, a, o, e1, e2, e3, e4, e5⟩ | ⟨v, e, e1, e2, e3, e4⟩
      · obtain ⟨rfl, rfl⟩ : s = (.live a o : St M.A) ∧ er = .ok := ⟨congrArg Prod.fst e5, congrArg Prod.snd e5⟩
        rw [e1]
        have hrel : Rel d 0 v (o.map (·, 0)) v := by
          cases o with
          | none => rfl
          | some k => exact ⟨Nat.le_refl _, by simpa using e3 k rfl⟩
        have hoo : (o.map (·, 0)).map Prod.fst = o := by cases o <;> rfl
        have := run_view hM (hr := hr) (base := n) d 0 a (o.map (·, 0)) v v (Nat.zero_le _) rfl (by rw [hoo]; exact e2) hrel
        rw [hoo] at this
        have hex : M.toParser.exec (.live a o) d = M.run 0 d a (o.map (·, 0)) := rfl
        have hsem : ∀ x y z, sem (answers hr) n d (M.run 0 d a (o.map (·, 0))) v = (x, y, z) →
            view (feedStep M.toParser (answers hr) (os, n, .live a o, .ok) d).1 = x ∧
            (feedStep M.toParser (answers hr) (os, n, .live a o, .ok) d).2.2 = (z, y) := by
          intro x y z h
          simp only [sem, Prod.mk.injEq] at h
          simp only [feedStep, hex, view_append]
          rw [show view os = v from e4]
          exact ⟨h.1, Prod.ext h.2.2 h.2.1⟩
        rcases this with ⟨v', a', o', q1, q2, q3, q4⟩ | ⟨v', e, v0', q1, q2, q3, q4⟩
        · have := hsem _ _ _ q4
          exact .inl ⟨v', a', o', q1, q2, q3, this.1, this.2⟩
        · have := hsem _ _ _ q3
          exact .inr ⟨v', e, q1, q2, fun h => this.1.trans (q4 h), this.2⟩
      · obtain ⟨rfl, rfl⟩ : s = (.dead e : St M.A) ∧ e = er := ⟨congrArg Prod.fst e4, (congrArg Prod.snd e4).symm⟩
        rw [e1, absRun_dead]
        right
        refine ⟨v, e, rfl, e2, ?_, rfl⟩
        intro h
        have h3 := e3 h
        simp only [feedStep]
        show view (os ++ []) = v
        rw [List.append_nil]; exact h3
  have := key ds.reverse
  rwa [List.reverse_reverse] at this

theorem absTree_never {hr : CbRet} {e : Errno} (he : e ≠ .paused ∧ e ≠ .user) {c : UInt8} (t : MTree A) : ∀ (n : Nat) (v : View) (o : Option SpanK),
    t.Never e → (absTree hr n c t v o).2 ≠ .dead e := by
  induction t with
  | done a => intro n v o _; cases o <;> (intro h; cases h)
  | fail e' => intro n v o h h'; exact h (St.dead.inj h')
  | act ev t ih =>
    intro n v o h
    cases ev with
    | spanEndIncl => cases o <;> exact ih _ _ _ h
    | _ => exact ih _ _ _ h
  | headers cl cc ka t1 t2 ih1 ih2 =>
    intro n v o h
    cases hr with
    | continue_ => exact ih1 _ _ _ h.1
    | noBody => exact ih2 _ _ _ h.2
    | pause => intro h'; exact he.1 (St.dead.inj h').symm
    | user => intro h'; exact he.2 (St.dead.inj h').symm

/-- An error no action ends with does not occur. -/
theorem absRun_never {M : Machine} {hr : CbRet} {e : Errno} (he : e ≠ .paused ∧ e ≠ .user) (hM : ∀ a c, (M.step a c).Never e) (cs : Bytes) :
    ∀ (n : Nat) (x : View × St M.A), x.2 ≠ .dead e → (absRun M hr n x cs).2 ≠ .dead e := by
  induction cs with
  | nil => intro n x h; exact h
  | cons c cs ih =>
    intro n x h
    refine ih _ _ ?_
    obtain ⟨v, s⟩ := x
    cases s with
    | live a o => exact absTree_never he _ _ _ _ (hM a c)
    | dead e' => exact h

/-- What a machine reports does not depend on how the stream is cut. -/
theorem chunkFree {M : Machine} {phase : M.A → Phase} {opened : M.A → Option SpanK} (hM : Ok strict M phase opened) : ChunkFree M.toParser := by
  intro hr ds ds' _ heq
  have h1 := feed_view hM hr ds
  have h2 := feed_view hM hr ds'
  rw [heq] at h1
  rcases h1 with ⟨v, a, o, e1, _, _, e4, e5⟩ | ⟨v, e, e1, e2, e3, e4⟩ <;>
    rcases h2 with ⟨v', a', o', f1, _, _, f4, f5⟩ | ⟨v', e', f1, f2, f3, f4⟩
  · rw [e1] at f1; cases f1
    rw [e4, f4, e5, f5]; simp
  · rw [e1] at f1; cases f1
  · rw [e1] at f1; cases f1
  · rw [e1] at f1; cases f1
    rw [e4, f4]
    refine ⟨rfl, ?_⟩
    rintro (h | h | h)
    · exact absurd h e2
    · rw [e3 (.inl h), f3 (.inl h)]
    · rw [e3 (.inr h), f3 (.inr h)]

end CoreHttp.Machine

import Verif.Ref.MachineView

/-!
# What a byte-at-a-time parser reports, byte by byte, with locations

The same as Verif/Ref/MachineView.lean for any summary of the events (`Acc`) that does not depend on how spans are cut; the locations of spans count.
-/

namespace CoreHttp.Machine
open Spec

/-- A summary of located events, indifferent to where spans are cut. -/
structure Acc (V : Type) where
  upd : V → PObs → V
  span : ∀ v (k : SpanK) a b l d, upd v ⟨k.ev a b, l, d⟩ = upd v ⟨k.ev 0 0, l, d⟩
  merge : ∀ v (k : SpanK) l d d', upd (upd v ⟨k.ev 0 0, l, d⟩) ⟨k.ev 0 0, l + d.length, d'⟩ = upd v ⟨k.ev 0 0, l, d ++ d'⟩
  mb : ∀ v l d, upd v ⟨.messageBegin, l, d⟩ = upd v ⟨.messageBegin, 0, []⟩
  sc : ∀ v code l d, upd v ⟨.statusComplete code, l, d⟩ = upd v ⟨.statusComplete code, 0, []⟩
  mc : ∀ v l d, upd v ⟨.messageComplete, l, d⟩ = upd v ⟨.messageComplete, 0, []⟩
  hc : ∀ v a cl cc ka l d, upd v ⟨.headersComplete a cl cc ka, l, d⟩ = upd v ⟨.headersComplete 0 cl cc ka, l, []⟩

variable {V : Type} (G : Acc V)

/-- A fragment of a span at a location. -/
def Acc.frag (k : SpanK) (l : Nat) (d : Bytes) (v : V) : V := G.upd v ⟨k.ev 0 0, l, d⟩

/-- The summary after the actions for byte `c` at position `n` of the stream. -/
def gTree {A : Type} (hr : CbRet) (n : Nat) (c : UInt8) : MTree A → V → Option SpanK → V × St A
  | .done a, v, none => (v, .live a none)
  | .done a, v, some k => (G.frag k n [c] v, .live a (some k))
  | .fail e, v, _ => (v, .dead e)
  | .act .messageBegin t, v, o => gTree hr n c t (G.upd v ⟨.messageBegin, 0, []⟩) o
  | .act (.spanStart k) t, v, _ => gTree hr n c t (G.frag k n [] v) (some k)
  | .act .spanEnd t, v, _ => gTree hr n c t v none
  | .act .spanEndIncl t, v, some k => gTree hr n c t (G.frag k n [c] v) none
  | .act .spanEndIncl t, v, none => gTree hr n c t v none
  | .act (.statusComplete code) t, v, o => gTree hr n c t (G.upd v ⟨.statusComplete code, 0, []⟩) o
  | .act .messageComplete t, v, o => gTree hr n c t (G.upd v ⟨.messageComplete, 0, []⟩) o
  | .headers cl cc ka t1 t2, v, o =>
    match hr with
    | .pause => (G.upd v ⟨.headersComplete 0 cl cc ka, n + 1, []⟩, .dead .paused)
    | .user => (G.upd v ⟨.headersComplete 0 cl cc ka, n + 1, []⟩, .dead .user)
    | .noBody => gTree hr n c t2 (G.upd v ⟨.headersComplete 0 cl cc ka, n + 1, []⟩) o
    | .continue_ => gTree hr n c t1 (G.upd v ⟨.headersComplete 0 cl cc ka, n + 1, []⟩) o

/-- One byte. -/
def gStep (M : Machine) (hr : CbRet) (n : Nat) (x : V × St M.A) (c : UInt8) : V × St M.A :=
  match x.2 with
  | .live a o => gTree G hr n c (M.step a c) x.1 o
  | .dead e => (x.1, .dead e)

/-- A byte string, located at position `n` of the stream. -/
def gRun (M : Machine) (hr : CbRet) : Nat → V × St M.A → Bytes → V × St M.A
  | _, x, [] => x
  | n, x, c :: cs => gRun M hr (n + 1) (gStep G M hr n x c) cs

variable {G}

theorem gRun_append (M : Machine) (hr : CbRet) (n : Nat) (x : V × St M.A) (cs ds : Bytes) :
    gRun G M hr n x (cs ++ ds) = gRun G M hr (n + cs.length) (gRun G M hr n x cs) ds := by
  induction cs generalizing n x with
  | nil => rfl
  | cons c cs ih =>
    simp only [List.cons_append, gRun, ih, List.length_cons]
    congr 1; omega

theorem gRun_dead (M : Machine) (hr : CbRet) (n : Nat) (v : V) (e : Errno) (cs : Bytes) :
    gRun G M hr n (v, .dead e) cs = (v, .dead e) := by
  induction cs generalizing n with
  | nil => rfl
  | cons c cs ih => exact ih (n + 1)

theorem gfrag_append (v : V) (k : SpanK) (l : Nat) (d d' : Bytes) :
    G.frag k (l + d.length) d' (G.frag k l d v) = G.frag k l (d ++ d') v := G.merge v k l d d'

variable (G) in
/-- What a tree of callbacks means, from `v`. -/
def gsem {S : Type} (pol : PEv → CbRet) (base : Nat) (data : Bytes) (t : PTree S) (v : V) : V × Errno × S :=
  (((t.run pol).1.map (·.observe base data)).foldl G.upd v, (t.run pol).2.1, (t.run pol).2.2.2)

theorem gsem_call {S : Type} (pol : PEv → CbRet) (base : Nat) (data : Bytes) (e : PEv) (k : CbRet → PTree S) (v : V) :
    gsem G pol base data (.call e k) v = gsem G pol base data (k (pol e)) (G.upd v (e.observe base data)) := by
  simp [gsem, PTree.run]

theorem gsem_callSpan {A : Type} (hr : CbRet) (base : Nat) (data : Bytes) (k : SpanK) (s len p : Nat) (t : PTree (St A)) (v : V) :
    gsem G (answers hr) base data (callSpan k s len p t) v = gsem G (answers hr) base data t (G.frag k (base + s) ((data.drop s).take len) v) := by
  unfold callSpan
  rw [gsem_call, answers_ev]
  simp only [reduceCtorEq, if_false]
  congr 1
  unfold PEv.observe Acc.frag
  rw [G.span]
  cases k <;> rfl

variable (G) in
/-- The summary `v0` of what was reported and the summary `v` that counts the open span up to position `p`. -/
def GRel (base : Nat) (data : Bytes) (p : Nat) (v0 : V) : Option (SpanK × Nat) → V → Prop
  | none, v => v0 = v
  | some (k, s), v => s ≤ p ∧ G.frag k (base + s) ((data.drop s).take (p - s)) v0 = v

variable {A : Type} {phase : A → Phase} {opened : A → Option SpanK}

theorem byteTree_g {hr : CbRet} {base p : Nat} {data : Bytes} {c : UInt8} (hc : data[p]? = some c) {k : A → Option (SpanK × Nat) → PTree (St A)}
    (t : MTree A) : ∀ (p0 : Phase) (o : Option (SpanK × Nat)) (started late : Bool) (v0 v : V),
      ActOk strict phase opened t p0 (o.map Prod.fst) started late → GRel G base data p v0 o v →
      (∃ v' a o' v0', gTree G hr (base + p) c t v (o.map Prod.fst) = (v', .live a (o'.map Prod.fst)) ∧ opened a = o'.map Prod.fst ∧
        GRel G base data (p + 1) v0' o' v' ∧ gsem G (answers hr) base data (byteTree k p t o) v0 = gsem G (answers hr) base data (k a o') v0') ∨
      (∃ v' e v0', gTree G hr (base + p) c t v (o.map Prod.fst) = (v', .dead e) ∧ e ≠ .ok ∧
        gsem G (answers hr) base data (byteTree k p t o) v0 = (v0', e, .dead e) ∧ (e = .paused ∨ e = .pausedUpgrade → v0' = v')) := by
  have hlt : p < data.length := by
    rcases Nat.lt_or_ge p data.length with h | h
    · exact h
    · rw [List.getElem?_eq_none h] at hc; cases hc
  have hone : ∀ (sk : SpanK) (s : Nat) (v0 v : V), s ≤ p → G.frag sk (base + s) ((data.drop s).take (p - s)) v0 = v →
      G.frag sk (base + s) ((data.drop s).take (p + 1 - s)) v0 = G.frag sk (base + p) [c] v := by
    intro sk s v0 v h1 h2
    rw [take_succ_drop h1 hc, ← gfrag_append, h2]
    congr 1
    simp; omega
  induction t with
  | done a =>
    intro p0 o started late v0 v h hrel
    obtain ⟨_, ho⟩ := h
    left
    cases o with
    | none => exact ⟨v, a, none, v0, rfl, ho, hrel, rfl⟩
    | some ks =>
      obtain ⟨sk, s⟩ := ks
      obtain ⟨h1, h2⟩ := hrel
      exact ⟨_, a, some (sk, s), v0, rfl, ho, ⟨by omega, hone sk s v0 v h1 h2⟩, rfl⟩
  | fail e =>
    intro p0 o started late v0 v h hrel
    right
    obtain ⟨⟨_, _, h3⟩, h1, h2, _⟩ := h
    refine ⟨v, e, v0, rfl, h1, rfl, fun h => ?_⟩
    rcases h with h | h
    · exact absurd h h2
    · have ho : o = none := by have := (h3 h).2; cases o <;> simp_all
      subst ho
      exact hrel
  | act e t ih =>
    intro p0 o started late v0 v h hrel
    cases e with
    | messageBegin =>
      obtain ⟨h1, h2, h3⟩ := h
      have ho : o = none := by cases o <;> simp_all
      subst ho
      obtain rfl : v0 = v := hrel
      simp only [byteTree, gsem_call, gTree, PEv.observe, G.mb]
      exact ih _ none started late _ _ h3 rfl
    | spanStart sk =>
      obtain ⟨h1, h2, rfl, h3⟩ := h
      have ho : o = none := by cases o <;> simp_all
      subst ho
      obtain rfl : v0 = v := hrel
      simp only [byteTree, gTree]
      refine ih _ (some (sk, p)) true false v0 _ h3 ⟨Nat.le_refl _, ?_⟩
      simp
    | spanEnd =>
      obtain ⟨rfl, sk, h1, h2, h3⟩ := h
      cases o with
      | none => cases h1
      | some ks =>
        obtain ⟨sk', s⟩ := ks
        obtain rfl : sk' = sk := by simpa using h1
        obtain ⟨q1, q2⟩ := hrel
        simp only [byteTree, gsem_callSpan, gTree, q2]
        exact ih _ none started false _ _ h3 rfl
    | spanEndIncl =>
      obtain ⟨sk, h1, h3⟩ := h
      cases o with
      | none => cases h1
      | some ks =>
        obtain ⟨sk', s⟩ := ks
        obtain rfl : sk' = sk := by simpa using h1
        obtain ⟨q1, q2⟩ := hrel
        simp only [byteTree, gsem_callSpan, gTree, hone _ s v0 v q1 q2, Option.map_some]
        exact ih _ none started true _ _ h3 rfl
    | statusComplete code =>
      obtain ⟨h1, rfl, h3⟩ := h
      have ho : o = none := by cases o <;> simp_all
      subst ho
      obtain rfl : v0 = v := hrel
      simp only [byteTree, gsem_call, gTree, PEv.observe, G.sc]
      exact ih _ none started late _ _ h3 rfl
    | messageComplete =>
      obtain ⟨h1, h2, h3⟩ := h
      have ho : o = none := by cases o <;> simp_all
      subst ho
      obtain rfl : v0 = v := hrel
      simp only [byteTree, gsem_call, gTree, PEv.observe, G.mc]
      exact ih _ none started late _ _ h3 rfl
  | headers cl cc ka t1 t2 ih1 ih2 =>
    intro p0 o started late v0 v h hrel
    obtain ⟨h1, rfl, h2, h3, h4⟩ := h
    have ho : o = none := by cases o <;> simp_all
    subst ho
    obtain rfl : v0 = v := hrel
    have hob : G.upd v0 ((PEv.headersComplete (p + 1) cl cc ka).observe base data) = G.upd v0 ⟨.headersComplete 0 cl cc ka, base + p + 1, []⟩ := by
      unfold PEv.observe; rw [G.hc]; rfl
    simp only [byteTree, gsem_call, gTree, answers, hob]
    cases hr with
    | continue_ => exact ih1 _ none started true _ _ h3 rfl
    | noBody => exact ih2 _ none started true _ _ h4 rfl
    | pause => right; exact ⟨_, .paused, _, rfl, by simp, rfl, fun _ => rfl⟩
    | user => right; exact ⟨_, .user, _, rfl, by simp, rfl, fun h => by rcases h with h | h <;> cases h⟩

/-- The open span is the one of the state. -/
theorem gTree_opened {hr : CbRet} {n : Nat} {c : UInt8} (t : MTree A) : ∀ {p0 : Phase} {o : Option SpanK} {started late : Bool},
    ActOk strict phase opened t p0 o started late → ∀ v {v' a' o'}, gTree G hr n c t v o = (v', .live a' o') → opened a' = o' := by
  induction t with
  | done a =>
    intro p0 o st lt h v v' a' o' e
    cases o <;> (simp only [gTree, Prod.mk.injEq, St.live.injEq] at e; obtain ⟨_, rfl, rfl⟩ := e; exact h.2)
  | fail e => intro p0 o st lt h v v' a' o' e; simp [gTree] at e
  | act e t ih =>
    intro p0 o st lt h v v' a' o' e'
    cases e with
    | messageBegin => obtain ⟨rfl, _, h⟩ := h; exact ih h _ e'
    | spanStart k => exact ih h.2.2.2 _ e'
    | spanEnd => obtain ⟨_, _, _, _, h⟩ := h; exact ih h _ e'
    | spanEndIncl => obtain ⟨k, rfl, h⟩ := h; exact ih h _ e'
    | statusComplete code => obtain ⟨rfl, _, h⟩ := h; exact ih h _ e'
    | messageComplete => obtain ⟨rfl, _, h⟩ := h; exact ih h _ e'
  | headers cl cc ka t1 t2 ih1 ih2 =>
    intro p0 o st lt h v v' a' o' e'
    obtain ⟨rfl, _, _, h1, h2⟩ := h
    cases hr with
    | continue_ => exact ih1 h1 _ e'
    | noBody => exact ih2 h2 _ e'
    | pause => simp [gTree] at e'
    | user => simp [gTree] at e'

/-- Reading data from position `p` on. -/
theorem run_g {M : Machine} {phase : M.A → Phase} {opened : M.A → Option SpanK} (hM : Ok strict M phase opened) {hr : CbRet} {base : Nat} {data : Bytes}
    (rest : Bytes) : ∀ (p : Nat) (a : M.A) (o : Option (SpanK × Nat)) (v0 v : V), p ≤ data.length → data.drop p = rest →
      opened a = o.map Prod.fst → GRel G base data p v0 o v →
      (∃ v' a' o', gRun G M hr (base + p) (v, .live a (o.map Prod.fst)) rest = (v', .live a' o') ∧ opened a' = o' ∧
        (∀ k, o' = some k → G.frag k (base + data.length) [] v' = v') ∧ gsem G (answers hr) base data (M.run p rest a o) v0 = (v', .ok, .live a' o')) ∨
      (∃ v' e v0', gRun G M hr (base + p) (v, .live a (o.map Prod.fst)) rest = (v', .dead e) ∧ e ≠ .ok ∧
        gsem G (answers hr) base data (M.run p rest a o) v0 = (v0', e, .dead e) ∧ (e = .paused ∨ e = .pausedUpgrade → v0' = v')) := by
  induction rest with
  | nil =>
    intro p a o v0 v hp hrest ho hrel
    have hpe : p = data.length := by
      have := congrArg List.length hrest
      simp at this; omega
    left
    cases o with
    | none =>
      obtain rfl : v0 = v := hrel
      exact ⟨v0, a, none, rfl, ho, (by intro k h; cases h), rfl⟩
    | some ks =>
      obtain ⟨k, s⟩ := ks
      obtain ⟨h1, h2⟩ := hrel
      refine ⟨v, a, some k, rfl, ho, ?_, ?_⟩
      · intro k' hk
        cases hk
        have := gfrag_append (G := G) v0 k (base + s) ((data.drop s).take (p - s)) []
        rw [h2, List.append_nil, h2] at this
        rw [show base + data.length = base + s + ((data.drop s).take (p - s)).length by simp; omega]
        exact this
      · simp only [run, gsem_callSpan, h2]
        rfl
  | cons c cs ih =>
    intro p a o v0 v hp hrest ho hrel
    have hc : data[p]? = some c := by
      have : (data.drop p)[0]? = some c := by rw [hrest]; rfl
      simpa using this
    have hlt : p < data.length := by
      rcases Nat.lt_or_ge p data.length with h | h
      · exact h
      · rw [List.getElem?_eq_none h] at hc; cases hc
    have hst := hM.step a c
    rw [ho] at hst
    have hrun : ∀ x, gRun G M hr (base + p) (v, .live a (o.map Prod.fst)) (c :: cs) = x ↔
        gRun G M hr (base + (p + 1)) (gTree G hr (base + p) c (M.step a c) v (o.map Prod.fst)) cs = x := fun x => Iff.rfl
    simp only [hrun]
    rcases byteTree_g (G := G) (hr := hr) (base := base) (k := fun a o => M.run (p + 1) cs a o) hc (M.step a c) _ o _ _ v0 v hst hrel with
      ⟨v', a', o', v0', e1, e2, e3, e4⟩ | ⟨v', e, v0', e1, e2, e3, e4⟩
    · rw [e1]
      simp only [run, e4]
      have hd : data.drop (p + 1) = cs := by
        have := congrArg (List.drop 1) hrest
        simpa [List.drop_drop] using this
      exact ih (p + 1) a' o' v0' v' (by omega) hd e2 e3
    · right
      rw [e1, gRun_dead]
      simp only [run]
      exact ⟨v', e, v0', rfl, e2, e3, e4⟩

/-- Feeding a machine, piece by piece. -/
theorem feed_g {M : Machine} {phase : M.A → Phase} {opened : M.A → Option SpanK} (hM : Ok strict M phase opened) (v₀ : V) (hr : CbRet) (ds : List Bytes) :
    (∃ v a o, gRun G M hr 0 (v₀, .live M.init none) ds.flatten = (v, .live a o) ∧ opened a = o ∧
      (∀ k, o = some k → G.frag k ds.flatten.length [] v = v) ∧ (feedAll M.toParser (answers hr) ds).1.foldl G.upd v₀ = v ∧
      (feedAll M.toParser (answers hr) ds).2.2 = (.live a o, .ok)) ∨
    (∃ v e, gRun G M hr 0 (v₀, .live M.init none) ds.flatten = (v, .dead e) ∧ e ≠ .ok ∧
      (e = .paused ∨ e = .pausedUpgrade → (feedAll M.toParser (answers hr) ds).1.foldl G.upd v₀ = v) ∧ (feedAll M.toParser (answers hr) ds).2.2 = (.dead e, e)) := by
  have key : ∀ (l : List Bytes), (∃ v a o, gRun G M hr 0 (v₀, .live M.init none) l.reverse.flatten = (v, .live a o) ∧ opened a = o ∧
      (∀ k, o = some k → G.frag k l.reverse.flatten.length [] v = v) ∧ (feedAll M.toParser (answers hr) l.reverse).1.foldl G.upd v₀ = v ∧
      (feedAll M.toParser (answers hr) l.reverse).2.2 = (.live a o, .ok)) ∨
    (∃ v e, gRun G M hr 0 (v₀, .live M.init none) l.reverse.flatten = (v, .dead e) ∧ e ≠ .ok ∧
      (e = .paused ∨ e = .pausedUpgrade → (feedAll M.toParser (answers hr) l.reverse).1.foldl G.upd v₀ = v) ∧ (feedAll M.toParser (answers hr) l.reverse).2.2 = (.dead e, e)) := by
    intro l
    induction l with
    | nil => exact .inl ⟨v₀, M.init, none, rfl, hM.init.2, (by intro k h; cases h), rfl, rfl⟩
    | cons d ds ih =>
      rw [List.reverse_cons]
      generalize ds.reverse = ds' at ih ⊢
      have hfa : feedAll M.toParser (answers hr) (ds' ++ [d]) = feedStep M.toParser (answers hr) (feedAll M.toParser (answers hr) ds') d := by
        simp [feedAll]
      rw [hfa, List.flatten_append, gRun_append, List.flatten_singleton, List.length_append]
      have hpos := feedAll_pos M.toParser (answers hr) ds'
      rw [Nat.zero_add]
      rw [← hpos] at ih ⊢
      generalize feedAll M.toParser (answers hr) ds' = acc at ih ⊢
      obtain ⟨os, n, s, er⟩ := acc
      rcases ih with ⟨v, a, o, e1, e2, e3, e4, e5⟩ | ⟨v, e, e1, e2, e3, e4⟩
      · obtain ⟨rfl, rfl⟩ : s = (.live a o : St M.A) ∧ er = .ok := ⟨congrArg Prod.fst e5, congrArg Prod.snd e5⟩
        rw [e1]
        have hrel : GRel G n d 0 v (o.map (·, 0)) v := by
          cases o with
          | none => rfl
          | some k => exact ⟨Nat.le_refl _, by simpa using e3 k rfl⟩
        have hoo : (o.map (·, 0)).map Prod.fst = o := by cases o <;> rfl
        have := run_g hM (hr := hr) (base := n) d 0 a (o.map (·, 0)) v v (Nat.zero_le _) rfl (by rw [hoo]; exact e2) hrel
        rw [hoo] at this
        have hex : M.toParser.exec (.live a o) d = M.run 0 d a (o.map (·, 0)) := rfl
        have hsem : ∀ x y z, gsem G (answers hr) n d (M.run 0 d a (o.map (·, 0))) v = (x, y, z) →
            (feedStep M.toParser (answers hr) (os, n, .live a o, .ok) d).1.foldl G.upd v₀ = x ∧
            (feedStep M.toParser (answers hr) (os, n, .live a o, .ok) d).2.2 = (z, y) := by
          intro x y z h
          simp only [gsem, Prod.mk.injEq] at h
          simp only [feedStep, hex, List.foldl_append]
          rw [show os.foldl G.upd v₀ = v from e4]
          exact ⟨h.1, Prod.ext h.2.2 h.2.1⟩
        rcases this with ⟨v', a', o', q1, q2, q3, q4⟩ | ⟨v', e, v0', q1, q2, q3, q4⟩
        · have := hsem _ _ _ q4
          exact .inl ⟨v', a', o', q1, q2, q3, this.1, this.2⟩
        · have := hsem _ _ _ q3
          exact .inr ⟨v', e, q1, q2, fun h => this.1.trans (q4 h), this.2⟩
      · obtain ⟨rfl, rfl⟩ : s = (.dead e : St M.A) ∧ e = er := ⟨congrArg Prod.fst e4, (congrArg Prod.snd e4).symm⟩
        rw [e1, gRun_dead]
        right
        refine ⟨v, e, rfl, e2, ?_, rfl⟩
        intro h
        have h3 := e3 h
        simp only [feedStep]
        show (os ++ []).foldl G.upd v₀ = v
        rw [List.append_nil]; exact h3
  have := key ds.reverse
  rwa [List.reverse_reverse] at this

end CoreHttp.Machine

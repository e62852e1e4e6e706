import Verif.Lemmas.Isolation
import Verif.Props.ReceiveEx

/-! # C74: clients with separate transports and buffers do not interfere -/

namespace CoreHttp.Props
open CoreHttp Spec Ref Machine
variable {σ Γ : Type}

theorem rel_start {p : Part Γ σ} {use own : Nat → Prop} (g : Γ) (m m' : Mem) (hm : ∀ b, use b → m b = m' b) :
    Rel p use own g m [] [] ⟨p.get g, m', []⟩ ⟨g, m, []⟩ :=
  ⟨⟨rfl, fun q => (q.put_get g).symm⟩, hm, fun _ _ => rfl, [], rfl, rfl⟩

/-- C74, one call: what a call of the API does depends only on its parameters, on its own part of the environment and on the contents of the
buffers it is given, and it changes nothing else. Whatever the rest of the program's environment `g` and memory `m` is, the call returns the same
reply (or ends in the same fault, or is as far) as in a program that has nothing else (environment `p.get g`, memory `m'`, with the same contents
of the buffers in `use`); the same events happen; the objects, the environment part and the buffers in `use` are the same afterwards; the rest of the
environment and all memory except the request and response buffers (`own`) is as before. -/
theorem C74_footprint (P : Parser) (cfg : Cfg) (fuel : Nat) (p : Part Γ σ) (hq : p.Quiet) (T : Option (Transport σ)) (o : Objs σ)
    (c : Call)
    (use own : Nat → Prop) (hou : ∀ b, own b → use b) (ho : ObjsIn own o) (hc : CallIn use c) (g : Γ) (m m' : Mem)
    (hm : ∀ b, use b → m b = m' b) :
    ∃ (r : Run (Reply × Objs σ)) (w : World PLog σ) (R : Run (Reply × Objs Γ)) (W : World PLog Γ),
      runCall P cfg fuel T o c ⟨p.get g, m', []⟩ = (r, w) ∧
      runCall P cfg fuel (T.map p.transport) (p.objs o) c ⟨g, m, []⟩ = (R, W) ∧
      (match r, R with
        | .ok (y, o'), .ok (z, o'') => z = y ∧ o'' = p.objs o'
        | .fault e, .fault e' => e' = e
        | .more, .more => True
        | _, _ => False) ∧
      W.log = w.log ∧ W.env = p.put g w.env ∧ (∀ b, use b → W.mem b = w.mem b) ∧ (∀ b, ¬ own b → W.mem b = m b) := by
  obtain ⟨h1, h2, _⟩ := runCall_acts (p := p) (g0 := g) (m0 := m) (l := []) (L := []) P cfg fuel T o c hou ho hc _ _ (rel_start g m m' hm)
  rcases hx : runCall P cfg fuel T o c ⟨p.get g, m', []⟩ with ⟨r, w⟩
  rcases hX : runCall P cfg fuel (T.map p.transport) (p.objs o) c ⟨g, m, []⟩ with ⟨R, W⟩
  rw [hx, hX] at h1 h2
  simp only at h1
  refine ⟨r, w, R, W, rfl, rfl, ?_, ?_, h2.env.2 hq, h2.mem, h2.frame⟩
  · rw [h1]
    cases r <;> simp [mapRun, liftReply]
  · obtain ⟨evs, e1, e2⟩ := h2.log
    exact e2.trans e1.symm

/-- C74, other threads running meanwhile: the functions of the transport, the clock and the header callback may, besides what they do to the client's
part of the environment, change the rest of the environment in any way (`Part.put`: whatever other threads do while the call is in them). The call
returns the same reply, with the same events, objects, buffers and the same part of the environment, as if it ran alone. -/
theorem C74_interference (P : Parser) (cfg : Cfg) (fuel : Nat) (p : Part Γ σ) (T : Option (Transport σ)) (o : Objs σ) (c : Call)
    (use own : Nat → Prop) (hou : ∀ b, own b → use b) (ho : ObjsIn own o) (hc : CallIn use c) (g : Γ) (m m' : Mem)
    (hm : ∀ b, use b → m b = m' b) :
    ∃ (r : Run (Reply × Objs σ)) (w : World PLog σ) (R : Run (Reply × Objs Γ)) (W : World PLog Γ),
      runCall P cfg fuel T o c ⟨p.get g, m', []⟩ = (r, w) ∧
      runCall P cfg fuel (T.map p.transport) (p.objs o) c ⟨g, m, []⟩ = (R, W) ∧
      (match r, R with
        | .ok (y, o'), .ok (z, o'') => z = y ∧ o'' = p.objs o'
        | .fault e, .fault e' => e' = e
        | .more, .more => True
        | _, _ => False) ∧
      W.log = w.log ∧ p.get W.env = w.env ∧ (∀ b, use b → W.mem b = w.mem b) ∧ (∀ b, ¬ own b → W.mem b = m b) := by
  obtain ⟨h1, h2, _⟩ := runCall_acts (p := p) (g0 := g) (m0 := m) (l := []) (L := []) P cfg fuel T o c hou ho hc _ _ (rel_start g m m' hm)
  rcases hx : runCall P cfg fuel T o c ⟨p.get g, m', []⟩ with ⟨r, w⟩
  rcases hX : runCall P cfg fuel (T.map p.transport) (p.objs o) c ⟨g, m, []⟩ with ⟨R, W⟩
  rw [hx, hX] at h1 h2
  simp only at h1
  refine ⟨r, w, R, W, rfl, rfl, ?_, ?_, h2.env.1, h2.mem, h2.frame⟩
  · rw [h1]
    cases r <;> simp [mapRun, liftReply]
  · obtain ⟨evs, e1, e2⟩ := h2.log
    exact e2.trans e1.symm

/-- C74, any number of calls of a client while other threads run, before, during and after each call: between the calls they change the rest of
the environment and the memory that the client does not use in any way, and during the calls the rest of the environment. The client observes the
same as alone. -/
theorem C74_concurrent (P : Parser) (cfg : Cfg) (fuel : Nat) (p : Part Γ σ) (T : Option (Transport σ)) (o : Objs σ)
    (use own : Nat → Prop) (hou : ∀ b, own b → use b) (ho : ObjsIn own o) (ts : List (Turn Γ))
    (hc : ∀ t ∈ ts, CallIn use t.call) (ht : ∀ t ∈ ts, (∀ g, p.get (t.others g) = p.get g) ∧ (∀ m b, use b → t.writes m b = m b))
    (g : Γ) (m m' : Mem) (hm : ∀ b, use b → m b = m' b) :
    let among := Alone.runAmong P cfg fuel (T.map p.transport) ⟨some (p.objs o), g, m⟩ ts
    let alone := Alone.run P cfg fuel T ⟨some o, p.get g, m'⟩ (ts.map Turn.call)
    among.1 = alone.1 ∧ among.2.objs = alone.2.objs.map p.objs ∧ p.get among.2.env = alone.2.env ∧
      ∀ b, use b → among.2.mem b = alone.2.mem b := by
  have key : ∀ (ts : List (Turn Γ)) (A : Alone Γ) (a : Alone σ), (∀ t ∈ ts, CallIn use t.call) →
      (∀ t ∈ ts, (∀ g, p.get (t.others g) = p.get g) ∧ (∀ m b, use b → t.writes m b = m b)) →
      A.objs = a.objs.map p.objs → (∀ o, a.objs = some o → ObjsIn own o) → p.get A.env = a.env → (∀ b, use b → A.mem b = a.mem b) →
      (Alone.runAmong P cfg fuel (T.map p.transport) A ts).1 = (Alone.run P cfg fuel T a (ts.map Turn.call)).1 ∧
      (Alone.runAmong P cfg fuel (T.map p.transport) A ts).2.objs = (Alone.run P cfg fuel T a (ts.map Turn.call)).2.objs.map p.objs ∧
      p.get (Alone.runAmong P cfg fuel (T.map p.transport) A ts).2.env = (Alone.run P cfg fuel T a (ts.map Turn.call)).2.env ∧
      ∀ b, use b → (Alone.runAmong P cfg fuel (T.map p.transport) A ts).2.mem b = (Alone.run P cfg fuel T a (ts.map Turn.call)).2.mem b := by
    intro ts
    induction ts with
    | nil => intro A a _ _ h1 _ h3 h4; exact ⟨rfl, h1, h3, h4⟩
    | cons t ts ih =>
      intro A a hc ht h1 h2 h3 h4
      obtain ⟨t1, t2⟩ := ht t (by simp)
      obtain ⟨Ao, Ae, Am⟩ := A
      obtain ⟨ao, ae, am⟩ := a
      simp only at h1 h2 h3 h4
      subst h1 h3
      have hstep : (Alone.step P cfg fuel (T.map p.transport) ⟨ao.map p.objs, t.others Ae, t.writes Am⟩ t.call).1 =
            (Alone.step P cfg fuel T ⟨ao, p.get Ae, am⟩ t.call).1 ∧
          (Alone.step P cfg fuel (T.map p.transport) ⟨ao.map p.objs, t.others Ae, t.writes Am⟩ t.call).2.objs =
            (Alone.step P cfg fuel T ⟨ao, p.get Ae, am⟩ t.call).2.objs.map p.objs ∧
          (∀ o, (Alone.step P cfg fuel T ⟨ao, p.get Ae, am⟩ t.call).2.objs = some o → ObjsIn own o) ∧
          p.get (Alone.step P cfg fuel (T.map p.transport) ⟨ao.map p.objs, t.others Ae, t.writes Am⟩ t.call).2.env =
            (Alone.step P cfg fuel T ⟨ao, p.get Ae, am⟩ t.call).2.env ∧
          ∀ b, use b → (Alone.step P cfg fuel (T.map p.transport) ⟨ao.map p.objs, t.others Ae, t.writes Am⟩ t.call).2.mem b =
            (Alone.step P cfg fuel T ⟨ao, p.get Ae, am⟩ t.call).2.mem b := by
        have hmm : ∀ b, use b → t.writes Am b = am b := fun b hb => (t2 Am b hb).trans (h4 b hb)
        cases ao with
        | none => exact ⟨rfl, rfl, fun o h => by simp [Alone.step] at h, t1 Ae, hmm⟩
        | some o =>
          obtain ⟨k1, k2, k3⟩ := runCall_acts (p := p) (g0 := t.others Ae) (m0 := t.writes Am) (l := []) (L := []) P cfg fuel T o t.call hou
            (h2 o rfl) (hc t (by simp)) _ _ (rel_start (t.others Ae) (t.writes Am) am hmm)
          rw [t1 Ae] at k1 k2 k3
          unfold Alone.step
          simp only [Option.map_some]
          generalize runCall P cfg fuel T o t.call ⟨p.get Ae, am, []⟩ = x at *
          generalize runCall P cfg fuel (T.map p.transport) (p.objs o) t.call ⟨t.others Ae, t.writes Am, []⟩ = X at *
          obtain ⟨r, w⟩ := x
          obtain ⟨R, W⟩ := X
          obtain ⟨evs, l1, l2⟩ := k2.log
          have hl : W.log = w.log := l2.trans l1.symm
          simp only at k1
          rw [k1]
          cases r with
          | ok a =>
            obtain ⟨y, o1⟩ := a
            exact ⟨by simp only [mapRun, liftReply]; rw [hl], by simp [mapRun, liftReply],
              fun o h => by simp only [Option.some.injEq] at h; subst h; exact k3 _ rfl, k2.env.1, k2.mem⟩
          | fault e => exact ⟨by simp only [mapRun]; rw [hl], by simp [mapRun], fun o h => by simp at h, k2.env.1, k2.mem⟩
          | more => exact ⟨by simp only [mapRun]; rw [hl], by simp [mapRun], fun o h => by simp at h, k2.env.1, k2.mem⟩
      obtain ⟨s1, s2, s3, s4, s5⟩ := hstep
      obtain ⟨i1, i2, i3, i4⟩ := ih _ _ (fun t h => hc t (List.mem_cons_of_mem _ h)) (fun t h => ht t (List.mem_cons_of_mem _ h)) s2 s3 s4 s5
      simp only [Alone.runAmong, List.map_cons, Alone.run]
      exact ⟨by rw [s1, i1], i2, i3, i4⟩
  exact key ts ⟨some (p.objs o), g, m⟩ ⟨some o, p.get g, m'⟩ hc ht rfl (fun o' h => by cases h; exact ho) rfl hm

/-- The objects of every client that can go on are in its buffers. -/
def AllIn (own : Nat → Nat → Prop) (g : Program σ) : Prop :=
  ∀ j o, g.objs j = some o → ∃ o' : Objs σ, o = (client j).objs o' ∧ ObjsIn (own j) o'

/-- Client `i` in the program and client `i` alone. -/
structure Agree (use : Nat → Nat → Prop) (i : Nat) (g : Program σ) (a : Alone σ) : Prop where
  env : g.env i = a.env
  mem : ∀ b, use i b → g.mem b = a.mem b
  objs : g.objs i = a.objs.map (client i).objs

theorem step_own (P : Parser) (cfg : Cfg) (fuel : Nat) (T : Nat → Option (Transport σ)) (use own : Nat → Nat → Prop)
    (hou : ∀ i b, own i b → use i b) (i : Nat) (g : Program σ) (a : Alone σ) (hA : Agree use i g a) (hI : AllIn own g) (c : Call)
    (hc : CallIn (use i) c) :
    (g.step P cfg fuel T i c).1 = (a.step P cfg fuel (T i) c).1 ∧ Agree use i (g.step P cfg fuel T i c).2 (a.step P cfg fuel (T i) c).2 ∧
      AllIn own (g.step P cfg fuel T i c).2 := by
  unfold Program.step Alone.step
  obtain ⟨ao, ae, am⟩ := a
  obtain ⟨h1, h2, h3⟩ := hA
  cases ao with
  | none =>
    rw [h3]
    exact ⟨rfl, ⟨h1, h2, h3⟩, hI⟩
  | some o =>
    obtain ⟨o', e, hin⟩ := hI i _ h3
    have hin : ObjsIn (own i) o := by
      have h4 : o'.req = o.req := (congrArg Objs.req e).symm
      have h5 : o'.resp.bind Resp.pBuffer = o.resp.bind Resp.pBuffer := by
        have := congrArg Objs.resp e
        cases h6 : o'.resp <;> cases h7 : o.resp <;> simp_all [Part.objs, Part.response]
      exact bufIn hin (by rw [h4]) h5.symm
    rw [h3]
    obtain ⟨k1, k2, k3⟩ := runCall_acts (p := client i) (g0 := g.env) (m0 := g.mem) (l := []) (L := []) P cfg fuel (T i) o c (hou i) hin hc _ _
      (rel_start g.env g.mem am h2)
    have h1' : (client i).get g.env = ae := h1
    rw [h1'] at k1 k2 k3
    simp only [Option.map_some]
    generalize runCall P cfg fuel (T i) o c ⟨ae, am, []⟩ = x at *
    generalize runCall P cfg fuel ((T i).map (client i).transport) ((client i).objs o) c ⟨g.env, g.mem, []⟩ = X at *
    obtain ⟨r, w⟩ := x
    obtain ⟨R, W⟩ := X
    obtain ⟨evs, l1, l2⟩ := k2.log
    have hl : W.log = w.log := l2.trans l1.symm
    have he : W.env i = w.env := k2.get
    have others : ∀ z : Option (Objs (Envs σ)), (∀ o, z = some o → ∃ o' : Objs σ, o = (client i).objs o' ∧ ObjsIn (own i) o') →
        AllIn own (⟨fun j => if j = i then z else g.objs j, W.env, W.mem⟩ : Program σ) := by
      intro z hz j o ho
      dsimp only at ho
      split at ho
      · rename_i e; subst e; exact hz o ho
      · exact hI j o ho
    simp only at k1
    rw [k1]
    cases r with
    | ok a =>
      obtain ⟨y, o1⟩ := a
      exact ⟨by simp only [mapRun, liftReply]; rw [hl], ⟨he, k2.mem, by simp [mapRun, liftReply]⟩,
        others _ fun o h => ⟨o1, by simpa [liftReply] using h.symm, k3 _ rfl⟩⟩
    | fault e => exact ⟨by simp only [mapRun]; rw [hl], ⟨he, k2.mem, by simp [mapRun]⟩, others _ fun o h => by simp at h⟩
    | more => exact ⟨by simp only [mapRun]; rw [hl], ⟨he, k2.mem, by simp [mapRun]⟩, others _ fun o h => by simp at h⟩

theorem step_other (P : Parser) (cfg : Cfg) (fuel : Nat) (T : Nat → Option (Transport σ)) (use own : Nat → Nat → Prop)
    (hou : ∀ i b, own i b → use i b) (hsep : ∀ i j b, own i b → use j b → i = j) (i j : Nat) (hij : j ≠ i) (g : Program σ) (a : Alone σ)
    (hA : Agree use i g a) (hI : AllIn own g) (c : Call) (hc : CallIn (use j) c) :
    Agree use i (g.step P cfg fuel T j c).2 a ∧ AllIn own (g.step P cfg fuel T j c).2 := by
  cases ho : g.objs j with
  | none =>
    unfold Program.step
    rw [ho]
    exact ⟨hA, hI⟩
  | some o =>
    obtain ⟨o', e, hin⟩ := hI j o ho
    subst e
    have hJ : Agree use j g ⟨some o', g.env j, g.mem⟩ := ⟨rfl, fun _ _ => rfl, ho⟩
    obtain ⟨_, _, h3⟩ := step_own P cfg fuel T use own hou j g _ hJ hI c hc
    refine ⟨?_, h3⟩
    obtain ⟨k1, k2, k3⟩ := runCall_acts (p := client j) (g0 := g.env) (m0 := g.mem) (l := []) (L := []) P cfg fuel (T j) o' c (hou j) hin hc _ _
      (rel_start g.env g.mem g.mem fun _ _ => rfl)
    unfold Program.step
    rw [ho]
    dsimp only
    generalize runCall P cfg fuel ((T j).map (client j).transport) ((client j).objs o') c ⟨g.env, g.mem, []⟩ = X at *
    obtain ⟨R, W⟩ := X
    have he : W.env i = g.env i := by
      rw [k2.env.2 (client_quiet j)]
      show (if i = j then _ else _) = _
      rw [if_neg (Ne.symm hij)]
    have hm : ∀ b, use i b → W.mem b = g.mem b := fun b hb => k2.frame b fun ho => hij (hsep j i b ho hb)
    have hA' : ∀ z, Agree use i (⟨fun k => if k = j then z else g.objs k, W.env, W.mem⟩ : Program σ) a := fun z =>
      ⟨he.trans hA.env, fun b hb => (hm b hb).trans (hA.mem b hb), by
        show (if i = j then _ else _) = _
        rw [if_neg (Ne.symm hij)]
        exact hA.objs⟩
    cases R with
    | ok a => exact hA' _
    | fault e => exact hA' _
    | more => exact hA' _

/-- C74: any number of clients, each with its own transport, environment and objects, in one program with one memory. `own i` are the blocks that hold
the request and response buffers of client `i`, `use i` those it is given besides (request bodies); a block that client `i` owns is used by no other
client, but blocks that nobody owns may be shared. Then for every order in which the clients make their calls, client `i` observes exactly what it would
observe alone (in a memory with the same contents of the blocks it uses, and without the other clients): the same outcomes with the same
events, and at the end the same objects, environment and buffers. -/
theorem C74_isolation (P : Parser) (cfg : Cfg) (fuel : Nat) (T : Nat → Option (Transport σ)) (use own : Nat → Nat → Prop)
    (hou : ∀ i b, own i b → use i b) (hsep : ∀ i j b, own i b → use j b → i = j)
    (objs : Nat → Objs σ) (hin : ∀ i, ObjsIn (own i) (objs i)) (env : Envs σ) (m : Mem)
    (xs : List (Nat × Call)) (hx : ∀ i c, (i, c) ∈ xs → CallIn (use i) c) (i : Nat) (m' : Mem) (hm : ∀ b, use i b → m b = m' b) :
    let all := Program.run P cfg fuel T ⟨fun j => some ((client j).objs (objs j)), env, m⟩ xs
    let one := Alone.run P cfg fuel (T i) ⟨some (objs i), env i, m'⟩ (ofClient i xs)
    ofClient i all.1 = one.1 ∧ all.2.objs i = one.2.objs.map (client i).objs ∧ all.2.env i = one.2.env ∧
      ∀ b, use i b → all.2.mem b = one.2.mem b := by
  have key : ∀ (xs : List (Nat × Call)) (g : Program σ) (a : Alone σ), (∀ i c, (i, c) ∈ xs → CallIn (use i) c) → Agree use i g a → AllIn own g →
      ofClient i (Program.run P cfg fuel T g xs).1 = (Alone.run P cfg fuel (T i) a (ofClient i xs)).1 ∧
      Agree use i (Program.run P cfg fuel T g xs).2 (Alone.run P cfg fuel (T i) a (ofClient i xs)).2 := by
    intro xs
    induction xs with
    | nil => intro g a _ hA _; exact ⟨rfl, hA⟩
    | cons x xs ih =>
      intro g a hx hA hI
      obtain ⟨j, c⟩ := x
      have hx' : ∀ i c, (i, c) ∈ xs → CallIn (use i) c := fun i c h => hx i c (List.mem_cons_of_mem _ h)
      have hc := hx j c (by simp)
      by_cases hij : j = i
      · subst hij
        obtain ⟨h1, h2, h3⟩ := step_own P cfg fuel T use own hou j g a hA hI c hc
        obtain ⟨h4, h5⟩ := ih _ _ hx' h2 h3
        have e1 : ofClient j ((j, c) :: xs) = c :: ofClient j xs := by simp [ofClient]
        rw [e1]
        unfold Program.run Alone.run
        refine ⟨?_, h5⟩
        have e2 : ∀ (l : List Outcome) (l' : List (Nat × Outcome)), ofClient j ((l.map fun o => (j, o)) ++ l') = l ++ ofClient j l' := by
          intro l l'
          induction l with
          | nil => rfl
          | cons y l ih2 =>
            simp only [List.map_cons, List.cons_append]
            rw [← ih2]
            simp [ofClient]
        rw [e2, h4, h1]
      · obtain ⟨h2, h3⟩ := step_other P cfg fuel T use own hou hsep i j hij g a hA hI c hc
        obtain ⟨h4, h5⟩ := ih _ _ hx' h2 h3
        have e1 : ofClient i ((j, c) :: xs) = ofClient i xs := by simp [ofClient, hij]
        rw [e1]
        unfold Program.run
        refine ⟨?_, h5⟩
        have e2 : ∀ (l : List Outcome) (l' : List (Nat × Outcome)), ofClient i ((l.map fun o => (j, o)) ++ l') = ofClient i l' := by
          intro l l'
          induction l with
          | nil => rfl
          | cons y l ih2 =>
            simp only [List.map_cons, List.cons_append]
            rw [← ih2]
            simp [ofClient, hij]
        rw [e2, h4]
  intro all one
  obtain ⟨h1, h2⟩ := key xs ⟨fun j => some ((client j).objs (objs j)), env, m⟩ ⟨some (objs i), env i, m'⟩ hx ⟨rfl, hm, rfl⟩
    (fun j o ho => ⟨objs j, by cases ho; rfl, hin j⟩)
  exact ⟨h1, h2.objs, h2.env, h2.mem⟩

/-- Client `i` has its request buffer in block `3 i` and its response buffer in block `3 i + 1`. -/
def isoObjs (i : Nat) : Objs Script := ⟨some ⟨some (3 * i), 100, 0⟩, some { exResp 200 0 with pBuffer := some (3 * i + 1) }⟩
/-- A GET request. -/
def isoInit : Call := .init (some ⟨some (ascii "GET"), some (ascii "/a"), some (ascii "h"), 0⟩)
/-- Two clients take turns: both build a request, then both send it and read a header. -/
def isoCalls : List (Nat × Call) :=
  [(0, isoInit), (1, isoInit), (1, .addHeader (some (ascii "X")) (some (ascii "y"))), (0, .send (some 2) 3 0), (1, .send (some 2) 3 0),
   (0, .readHeader (some (ascii "server")) (some none) (some 0))]
/-- The peer of client 0 answers, that of client 1 does not. -/
def isoEnv : Envs Script := fun i => if i = 0 then (0, exChunked) else (0, [])

/-- The run. -/
def isoAll : List (Nat × Outcome) × Program Script := Program.run httpParser exCfg 100 (fun _ => some scriptT)
  ⟨fun j => some ((client j).objs (isoObjs j)), isoEnv, fun _ => List.replicate 200 0⟩ isoCalls

example :
    (ofClient 0 isoAll.1).map (fun o => match o.reply with | .ok r => some (r.status, r.valueLoc, r.valueLen) | _ => none) =
      [some (.success, none, none), some (.success, none, none), some (.success, some (some 25), some 1)] ∧
    (ofClient 1 isoAll.1).map (fun o => match o.reply with | .ok r => some r.status | _ => none) = [some .success, some .success, some .noResponse] ∧
    isoAll.1.length = 6 ∧
    (∀ i : Nat, ObjsIn (fun b => b = 3 * i ∨ b = 3 * i + 1) (isoObjs i)) ∧
    (∀ i j b : Nat, (b = 3 * i ∨ b = 3 * i + 1) → (b = 3 * j ∨ b = 3 * j + 1 ∨ b = 2) → i = j) ∧
    (∀ i c, (i, c) ∈ isoCalls → CallIn (fun b => b = 3 * i ∨ b = 3 * i + 1 ∨ b = 2) c) := by
  refine ⟨by decide +kernel, by decide +kernel, by decide +kernel, fun i => ⟨?_, ?_⟩, fun i j b h1 h2 => by omega, ?_⟩
  · intro h b e1 e2
    cases e1
    exact .inl (Option.some.inj e2).symm
  · intro h b e1 e2
    cases e1
    exact .inr (Option.some.inj e2).symm
  · intro i c h
    simp only [isoCalls, isoInit, List.mem_cons, Prod.mk.injEq, List.not_mem_nil, or_false] at h
    rcases h with ⟨_, rfl⟩ | ⟨_, rfl⟩ | ⟨_, rfl⟩ | ⟨_, rfl⟩ | ⟨_, rfl⟩ | ⟨_, rfl⟩ <;> simp [CallIn]

/-- The environment of client 0 as a part of both, while another thread reads from the other connection whenever client 0 is in its transport. -/
def busy : Part (Script × Script) Script where
  get := fun g => g.1
  put := fun g s => (s, (scriptRecv g.2 1).2.2)
  get_put := fun _ _ => rfl

/-- Client 0 builds a request and sends it, while another thread reads from the other connection and writes its own memory. -/
def busyRun : List Outcome × Alone (Script × Script) := Alone.runAmong httpParser exCfg 100 (some (busy.transport scriptT))
  ⟨some (busy.objs (isoObjs 0)), ((0, exChunked), (0, [ascii "one", ascii "two"])), fun _ => List.replicate 200 0⟩
  [⟨isoInit, id, id⟩, ⟨.send (some 2) 3 0, fun g => (g.1, (7, g.2.2)), fun m => m.set 9 [1]⟩]

example : busyRun.1.map (fun o => match o.reply with | .ok r => some r.status | _ => none) = [some .success, some .success] ∧
    busyRun.2.env.2.2 = [] ∧ busyRun.2.mem 9 = [1] := by decide +kernel
example : ¬ busy.Quiet := fun h => absurd (h.put_get ((0, []), (0, [ascii "one"]))) (by decide +kernel)
example : ∀ t ∈ [(⟨isoInit, id, id⟩ : Turn (Script × Script)), ⟨.send (some 2) 3 0, fun g => (g.1, (7, g.2.2)), fun m => m.set 9 [1]⟩],
    (∀ g, busy.get (t.others g) = busy.get g) ∧ (∀ (m : Mem) (b : Nat), b < 3 → t.writes m b = m b) := by
  intro t h
  simp only [List.mem_cons, List.not_mem_nil, or_false] at h
  rcases h with rfl | rfl
  · exact ⟨fun _ => rfl, fun _ _ _ => rfl⟩
  · exact ⟨fun _ => rfl, fun m b hb => Mem.set_other _ _ (by omega)⟩

end CoreHttp.Props

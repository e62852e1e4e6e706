import Verif.Model.Receive

/-! # Two runs of the receiving code from response objects that differ in what an earlier response left behind -/

namespace CoreHttp
variable {π σ : Type}

/-- Outcomes of the same kind, related by `R`. -/
def SimRun {α β : Type} (R : α → β → Prop) : Run α → Run β → Prop
  | .ok a, .ok b => R a b
  | .fault f, .fault g => f = g
  | .more, .more => True
  | _, _ => False

/-- From the same world the two programs come to the same world, with related outcomes. -/
def Sim {α β : Type} (x : M π σ α) (y : M π σ β) (R : α → β → Prop) : Prop := ∀ w, (x w).2 = (y w).2 ∧ SimRun R (x w).1 (y w).1

namespace Sim
variable {α β γ δ : Type}

theorem pure {a : α} {b : β} {R : α → β → Prop} (h : R a b) : Sim (Pure.pure a : M π σ α) (Pure.pure b : M π σ β) R := fun _ => ⟨rfl, h⟩
theorem fault {f : Fault} {R : α → β → Prop} : Sim (M.fault f : M π σ α) (M.fault f : M π σ β) R := fun _ => ⟨rfl, rfl⟩
theorem bind {x : M π σ α} {y : M π σ β} {k : α → M π σ γ} {l : β → M π σ δ} {R : α → β → Prop} {Q : γ → δ → Prop}
    (h1 : Sim x y R) (h2 : ∀ a b, R a b → Sim (k a) (l b) Q) : Sim (x >>= k) (y >>= l) Q := by
  intro w
  obtain ⟨h3, h4⟩ := h1 w
  simp only [M.bind_apply]
  rcases hx : x w with ⟨a | f | _, w'⟩ <;> rcases hy : y w with ⟨b | g | _, w''⟩ <;> rw [hx, hy] at h3 h4 <;>
    simp only [SimRun] at h3 h4 <;> subst h3 <;> try exact h4.elim
  · exact h2 a b h4 w'
  · exact ⟨rfl, h4⟩
  · exact ⟨rfl, trivial⟩
theorem refl (x : M π σ α) : Sim x x Eq := by
  intro w
  refine ⟨rfl, ?_⟩
  rcases (x w).1 with a | f | _ <;> simp [SimRun]
/-- The same first step. -/
theorem same {x : M π σ α} {k : α → M π σ γ} {l : α → M π σ δ} {Q : γ → δ → Prop} (h : ∀ a, Sim (k a) (l a) Q) : Sim (x >>= k) (x >>= l) Q :=
  .bind (.refl x) fun a _ e => e ▸ h a
theorem mono {x : M π σ α} {y : M π σ β} {R Q : α → β → Prop} (h : Sim x y R) (hi : ∀ a b, R a b → Q a b) : Sim x y Q := by
  intro w
  obtain ⟨h1, h2⟩ := h w
  refine ⟨h1, ?_⟩
  revert h2
  rcases (x w).1 with a | f | _ <;> rcases (y w).1 with b | g | _ <;> simp only [SimRun, imp_self]
  exact hi a b

end Sim

variable {S : Type}

/-- Equal but for contentLength and areHeadersComplete. -/
def Stale (r r' : Resp σ) : Prop := ∃ c a, r' = { r with contentLength := c, areHeadersComplete := a }
/-- Equal but for contentLength and areHeadersComplete. -/
def StaleS (h h' : RS S σ) : Prop := Stale h.resp h'.resp ∧ h'.ctx = h.ctx ∧ h.ctx.bound = true

theorem processCompleteHeader_sim (cfg : Cfg) (b : Nat) (h h' : RS S σ) (hs : StaleS h h') :
    Sim (processCompleteHeader cfg b h) (processCompleteHeader cfg b h') StaleS := by
  obtain ⟨resp, ctx⟩ := h
  obtain ⟨resp', ctx'⟩ := h'
  obtain ⟨⟨c, a, hr⟩, rfl, hb⟩ := hs
  dsimp only at hr
  subst hr
  unfold processCompleteHeader
  dsimp only
  cases ctx'.lastField with
  | none => exact .pure ⟨⟨c, a, rfl⟩, rfl, hb⟩
  | some f =>
    cases ctx'.lastValue with
    | none => exact .pure ⟨⟨c, a, rfl⟩, rfl, hb⟩
    | some v =>
      refine .same fun _ => ?_
      cases resp.pHeaderParsingCallback with
      | none => simp only [pure_bind]; exact .pure ⟨⟨c, a, rfl⟩, rfl, hb⟩
      | some cb =>
        cases cb with
        | null => exact .same fun _ => .pure ⟨⟨c, a, rfl⟩, rfl, hb⟩
        | user cb => exact .same fun _ => .same fun _ => .same fun _ => .same fun _ => .same fun _ => .pure ⟨⟨c, a, rfl⟩, rfl, hb⟩

theorem recvCallback_sim (cfg : Cfg) (b base : Nat) (e : PEv) (h h' : RS S σ) (hs : StaleS h h') :
    Sim (recvCallback cfg b base e h) (recvCallback cfg b base e h') fun x y => x.1 = y.1 ∧ StaleS x.2 y.2 := by
  obtain ⟨resp, ctx⟩ := h
  obtain ⟨resp', ctx'⟩ := h'
  obtain ⟨⟨c, a, hr⟩, rfl, hb⟩ := hs
  dsimp only at hr
  subst hr
  cases e with
  | messageBegin => exact .pure ⟨rfl, ⟨c, a, rfl⟩, rfl, hb⟩
  | messageComplete => exact .pure ⟨rfl, ⟨c, a, rfl⟩, rfl, hb⟩
  | status off len code => exact .same fun _ => .pure ⟨rfl, ⟨c, a, rfl⟩, rfl, hb⟩
  | statusComplete code => exact .same fun _ => .pure ⟨rfl, ⟨c, a, rfl⟩, rfl, hb⟩
  | headerField off len =>
    refine .same fun _ => .bind (processCompleteHeader_sim _ _ _ _ ⟨⟨c, a, rfl⟩, rfl, hb⟩) ?_
    rintro ⟨r, x⟩ ⟨r', x'⟩ ⟨hr, rfl, hb'⟩
    dsimp only at hr ⊢
    cases x'.lastField with
    | none => exact .pure ⟨rfl, hr, rfl, hb'⟩
    | some _ => exact .same fun _ => .pure ⟨rfl, hr, rfl, hb'⟩
  | headerValue off len =>
    exact .same fun _ => .pure ⟨rfl, ⟨c, a, rfl⟩, rfl, by dsimp only at hb ⊢; cases ctx'.lastValue <;> exact hb⟩
  | headersComplete at_ cl cc ka =>
    simp only [recvCallback, onHeadersComplete]
    cases ctx'.cur with
    | none => exact .fault
    | some cur =>
      dsimp only
      refine .same fun _ => .same fun _ => .same fun _ => .bind (processCompleteHeader_sim _ _ _ _ ⟨⟨_, _, rfl⟩, rfl, hb⟩) ?_
      rintro ⟨r, x⟩ ⟨r', x'⟩ ⟨⟨c', a', hr⟩, rfl, hb'⟩
      dsimp only at hr
      subst hr
      exact .pure ⟨rfl, ⟨c', a', rfl⟩, rfl, hb'⟩
  | body off len =>
    simp only [recvCallback, onBody]
    refine .same fun _ => .same fun _ => ?_
    cases resp.pBody with
    | none =>
      dsimp only
      split
      · exact .same fun _ => .same fun _ => .same fun _ => .same fun _ => .pure ⟨rfl, ⟨c, a, rfl⟩, rfl, hb⟩
      · exact .pure ⟨rfl, ⟨c, a, rfl⟩, rfl, hb⟩
    | some q =>
      dsimp only
      split
      · exact .same fun _ => .same fun _ => .same fun _ => .same fun _ => .pure ⟨rfl, ⟨c, a, rfl⟩, rfl, hb⟩
      · exact .pure ⟨rfl, ⟨c, a, rfl⟩, rfl, hb⟩

theorem runTree_sim (cfg : Cfg) (b base : Nat) (data : Bytes) (t : PTree S) : ∀ h h' : RS S σ, StaleS h h' →
    Sim (runTree b base data (recvCallback cfg b base) t h) (runTree b base data (recvCallback cfg b base) t h')
      fun x y => x.1 = y.1 ∧ x.2.1 = y.2.1 ∧ x.2.2.1 = y.2.2.1 ∧ StaleS x.2.2.2 y.2.2.2 := by
  induction t with
  | done er ep s => intro h h' hs; exact .same fun _ => .pure ⟨rfl, rfl, rfl, hs⟩
  | call e k ih =>
    intro h h' hs
    refine .same fun _ => .bind (recvCallback_sim cfg b base e h h' hs) ?_
    rintro ⟨r, h1⟩ ⟨r', h1'⟩ ⟨hr, hs1⟩
    dsimp only at hr
    subst hr
    exact .same fun _ => .same fun _ => ih r h1 h1' hs1

/-- Response objects the application has set up the same way. -/
def SetUp (r r' : Resp σ) : Prop :=
  r'.pBuffer = r.pBuffer ∧ r'.bufferLen = r.bufferLen ∧ r'.pHeaderParsingCallback = r.pHeaderParsingCallback ∧ r'.getTime = r.getTime ∧
    r'.respOptionFlags = r.respOptionFlags

/-- Before the first parse the objects may differ in everything that is reported, afterwards in contentLength and areHeadersComplete. -/
def StaleR (h h' : RS S σ) : Prop := SetUp h.resp h'.resp ∧ h'.ctx = h.ctx ∧ StaleS (bindResponse h) (bindResponse h')

theorem StaleS.toR {h h' : RS S σ} (hs : StaleS h h') : StaleR h h' := by
  obtain ⟨resp, ctx⟩ := h
  obtain ⟨resp', ctx'⟩ := h'
  obtain ⟨⟨c, a, hr⟩, rfl, hb⟩ := hs
  dsimp only at hr hb
  subst hr
  refine ⟨⟨rfl, rfl, rfl, rfl, rfl⟩, rfl, ?_⟩
  simp only [bindResponse, hb, Bool.true_eq_false, if_false]
  exact ⟨⟨c, a, rfl⟩, rfl, hb⟩

theorem SetUp.bind {h h' : RS S σ} (hs : SetUp h.resp h'.resp) (hc : h'.ctx = h.ctx) (hb : h.ctx.bound = false) : StaleR h h' := by
  obtain ⟨⟨b, n, cb, gt, ph, hl, pb, bl, sc, cl, hc', ahc, fl, rf⟩, ctx⟩ := h
  obtain ⟨⟨b', n', cb', gt', ph', hl', pb', bl', sc', cl', hc'', ahc', fl', rf'⟩, ctx'⟩ := h'
  dsimp only at hc hb
  subst hc
  refine ⟨hs, rfl, ?_⟩
  obtain ⟨h1, h2, h3, h4, h5⟩ := hs
  dsimp only at h1 h2 h3 h4 h5
  subst h1 h2 h3 h4 h5
  simp only [bindResponse, hb, if_true]
  exact ⟨⟨cl', ahc', rfl⟩, rfl, rfl⟩

theorem parse_sim (P : Parser) (cfg : Cfg) (b : Nat) (h h' : RS P.St σ) (n : Nat) (hs : StaleR h h') :
    Sim (parseHttpResponse P cfg b h n) (parseHttpResponse P cfg b h' n) fun x y => x.1 = y.1 ∧ StaleR x.2 y.2 ∧ StaleS x.2 y.2 := by
  obtain ⟨_, _, hst⟩ := hs
  unfold parseHttpResponse
  dsimp only
  rw [hst.2.1]
  cases (bindResponse h).ctx.cur with
  | none => exact .fault
  | some start =>
    dsimp only
    refine .same fun _ => .same fun _ => .same fun _ => .bind (runTree_sim _ _ _ _ _ _ _ hst) ?_
    rintro ⟨er, ep, s, h1⟩ ⟨er', ep', s', h1'⟩ ⟨e1, e2, e3, h4, h5, h6⟩
    dsimp only at e1 e2 e3 h4 h5 h6
    subst e1 e2 e3
    have : StaleS (⟨h1.resp, { h1.ctx with parser := if er = .pausedUpgrade then P.resume s else s, cur := some (if er = .paused then start + ep else start + n) }⟩ : RS P.St σ)
        ⟨h1'.resp, { h1'.ctx with parser := if er = .pausedUpgrade then P.resume s else s, cur := some (if er = .paused then start + ep else start + n) }⟩ := by
      refine ⟨h4, ?_, h6⟩
      dsimp only
      rw [h5]
    exact .pure ⟨rfl, this.toR, this⟩

/-- The outcome of the loop: the response objects agree on what is reported, or no parse has happened. -/
theorem recvLoop_sim (P : Parser) (cfg : Cfg) (recv : σ → Nat → Int × Bytes × σ) (timeout : UInt32) (b fuel : Nat) : ∀ total last (h h' : RS P.St σ),
    StaleR h h' → Sim (recvLoop P cfg recv timeout b fuel total last h) (recvLoop P cfg recv timeout b fuel total last h')
      fun x y => x.1 = y.1 ∧ x.2.1 = y.2.1 ∧ StaleR x.2.2 y.2.2 := by
  induction fuel with
  | zero => intro total last h h' hs; exact fun w => ⟨rfl, trivial⟩
  | succ n ih =>
    intro total last h h' hs
    unfold recvLoop
    have h1 := hs.1.2.1
    have h2 := hs.1.2.2.2.1
    rw [h1, h2, hs.2.1]
    refine .same fun w => .same fun blk => .same fun _ => .same fun _ => .same fun _ => ?_
    dsimp only
    split
    · exact .pure ⟨rfl, rfl, hs⟩
    · split
      · refine .same fun now => .bind (parse_sim P cfg b h h' _ hs) ?_
        rintro ⟨st, g⟩ ⟨st', g'⟩ ⟨e1, hs', _⟩
        dsimp only at e1 hs' ⊢
        subst e1
        rw [hs'.1.2.1, hs'.2.1]
        split
        · exact ih _ _ _ _ hs'
        · exact .pure ⟨rfl, rfl, hs'⟩
      · refine .same fun now => ?_
        split
        · refine .bind (parse_sim P cfg b h h' _ hs) ?_
          rintro ⟨st, g⟩ ⟨st', g'⟩ ⟨e1, hs', _⟩
          dsimp only at e1 hs'
          subst e1
          exact .pure ⟨rfl, rfl, hs'⟩
        · split
          · exact ih _ _ _ _ hs
          · exact .pure ⟨rfl, rfl, hs⟩

/-- What is returned: the same status, and response objects that agree on what is reported unless nothing was parsed. -/
theorem finishReceive_sim (cfg : Cfg) (st : Status) (total : Nat) (h h' : RS S σ) (hs : StaleR h h') :
    Sim (finishReceive cfg st total h) (finishReceive cfg st total h') fun x y => x.1 = y.1 ∧ SetUp x.2 y.2 ∧ (h.ctx.bound = true → Stale x.2 y.2) := by
  have hst : h.ctx.bound = true → Stale h.resp h'.resp := by
    intro hb
    have := hs.2.2
    unfold bindResponse at this
    rw [hs.2.1, hb] at this
    simp only [Bool.true_eq_false, if_false] at this
    exact this.1
  obtain ⟨⟨h1, h2, h3, h4, h5⟩, hc, _⟩ := hs
  unfold finishReceive
  refine .bind (R := fun x y => x.1 = y.1 ∧ y.2.ctx = x.2.ctx ∧ SetUp x.2.resp y.2.resp ∧ (h.ctx.bound = true → Stale x.2.resp y.2.resp)) ?_ ?_
  · rw [h5, hc]
    split
    · cases h.ctx.cur with
      | none => exact .fault
      | some cur =>
        refine .pure ⟨rfl, rfl, ⟨h1, h2, h3, h4, h5⟩, fun hb => ?_⟩
        obtain ⟨c, a, e⟩ := hst hb
        dsimp only
        rw [e]
        exact ⟨c, a, rfl⟩
    · exact .pure ⟨rfl, hc, ⟨h1, h2, h3, h4, h5⟩, hst⟩
  · rintro ⟨s1, g⟩ ⟨s1', g'⟩ ⟨e1, e2, e3, e4⟩
    dsimp only at e1 e2 e3 e4 ⊢
    subst e1
    split
    · refine .bind (R := Eq) ?_ ?_
      · unfold getFinalResponseStatus
        rw [e3.2.1, e3.2.2.2.2, e2]
        exact .refl _
      · rintro s2 _ rfl
        exact .pure ⟨rfl, e3, e4⟩
    · exact .pure ⟨rfl, e3, e4⟩

end CoreHttp

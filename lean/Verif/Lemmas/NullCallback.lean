import Verif.Lemmas.RecvSim

/-! # A run with a callback structure whose function is not set, against the run without a callback structure -/

namespace CoreHttp
variable {π σ : Type}

/-- The second program calls through NULL, or it does the same as the first, with related outcomes. -/
def Unset {α β : Type} (x : M π σ α) (y : M π σ β) (R : α → β → Prop) : Prop :=
  ∀ w, (y w).1 = .fault .nullCall ∨ ((x w).2 = (y w).2 ∧ SimRun R (x w).1 (y w).1)

namespace Unset
variable {α β γ δ : Type}

theorem pure {a : α} {b : β} {R : α → β → Prop} (h : R a b) : Unset (Pure.pure a : M π σ α) (Pure.pure b : M π σ β) R := fun _ => .inr ⟨rfl, h⟩
theorem crash {x : M π σ α} {R : α → β → Prop} : Unset x (M.fault .nullCall : M π σ β) R := fun _ => .inl rfl
theorem of {x : M π σ α} {y : M π σ β} {R : α → β → Prop} (h : Sim x y R) : Unset x y R := fun w => .inr (h w)
theorem bind {x : M π σ α} {y : M π σ β} {k : α → M π σ γ} {l : β → M π σ δ} {R : α → β → Prop} {Q : γ → δ → Prop}
    (h1 : Unset x y R) (h2 : ∀ a b, R a b → Unset (k a) (l b) Q) : Unset (x >>= k) (y >>= l) Q := by
  intro w
  simp only [M.bind_apply]
  rcases h1 w with h | ⟨h3, h4⟩
  · left
    rcases hy : y w with ⟨b | g | _, w''⟩ <;> rw [hy] at h <;> simp at h
    subst h
    rfl
  · rcases hx : x w with ⟨a | f | _, w'⟩ <;> rcases hy : y w with ⟨b | g | _, w''⟩ <;> rw [hx, hy] at h3 h4 <;>
      simp only [SimRun] at h3 h4 <;> subst h3 <;> try exact h4.elim
    · exact h2 a b h4 w'
    · exact .inr ⟨rfl, h4⟩
    · exact .inr ⟨rfl, trivial⟩
/-- The same first step. -/
theorem same {x : M π σ α} {k : α → M π σ γ} {l : α → M π σ δ} {Q : γ → δ → Prop} (h : ∀ a, Unset (k a) (l a) Q) : Unset (x >>= k) (x >>= l) Q :=
  .bind (.of (.refl x)) fun a _ e => e ▸ h a

end Unset

variable {S : Type}

/-- The second object has a callback structure without function, the first none; nothing else differs, and no header has been counted. -/
def NoHdr (h h' : RS S σ) : Prop :=
  h.resp.pHeaderParsingCallback = none ∧ h' = ⟨{ h.resp with pHeaderParsingCallback := some .null }, h.ctx⟩ ∧ (h.ctx.bound = true → h.resp.headerCount = 0)

theorem processCompleteHeader_unset (cfg : Cfg) (b : Nat) (h h' : RS S σ) (hs : NoHdr h h') :
    Unset (processCompleteHeader cfg b h) (processCompleteHeader cfg b h') fun x y => NoHdr x y ∧ x.ctx.bound = h.ctx.bound := by
  obtain ⟨h1, rfl, h2⟩ := hs
  obtain ⟨resp, ctx⟩ := h
  unfold processCompleteHeader
  dsimp only at h1 h2 ⊢
  cases ctx.lastField with
  | none => exact .pure ⟨⟨h1, rfl, h2⟩, rfl⟩
  | some f =>
    cases ctx.lastValue with
    | none => exact .pure ⟨⟨h1, rfl, h2⟩, rfl⟩
    | some v =>
      refine .same fun _ => ?_
      exact .crash

theorem recvCallback_unset (cfg : Cfg) (b base : Nat) (e : PEv) (h h' : RS S σ) (hs : NoHdr h h') :
    Unset (recvCallback cfg b base e h) (recvCallback cfg b base e h') fun x y => x.1 = y.1 ∧ NoHdr x.2 y.2 ∧ x.2.ctx.bound = h.ctx.bound := by
  obtain ⟨h1, rfl, h2⟩ := hs
  obtain ⟨resp, ctx⟩ := h
  dsimp only at h1 h2 ⊢
  cases e with
  | messageBegin => exact .pure ⟨rfl, ⟨h1, rfl, h2⟩, rfl⟩
  | messageComplete => exact .pure ⟨rfl, ⟨h1, rfl, h2⟩, rfl⟩
  | status off len code => exact .same fun _ => .pure ⟨rfl, ⟨h1, rfl, h2⟩, rfl⟩
  | statusComplete code => exact .same fun _ => .pure ⟨rfl, ⟨h1, rfl, h2⟩, rfl⟩
  | headerField off len =>
    refine .same fun _ => .bind (processCompleteHeader_unset _ _ _ _ ⟨h1, rfl, h2⟩) ?_
    rintro ⟨r, x⟩ ⟨r', x'⟩ ⟨⟨q1, q2, q3⟩, q4⟩
    dsimp only at q1 q2 q3 q4 ⊢
    obtain ⟨rfl, rfl⟩ := RS.mk.inj q2
    cases x'.lastField with
    | none => exact .pure ⟨rfl, ⟨q1, rfl, q3⟩, q4⟩
    | some _ => exact .same fun _ => .pure ⟨rfl, ⟨q1, rfl, q3⟩, q4⟩
  | headerValue off len =>
    refine .same fun _ => .pure ⟨rfl, ⟨h1, rfl, ?_⟩, ?_⟩ <;> dsimp only <;> cases ctx.lastValue <;> first | exact h2 | rfl
  | headersComplete at_ cl cc ka =>
    simp only [recvCallback, onHeadersComplete]
    cases ctx.cur with
    | none => exact .of .fault
    | some cur =>
      dsimp only
      refine .same fun _ => .same fun _ => .same fun _ => .bind (processCompleteHeader_unset _ _ _ _ ⟨h1, rfl, h2⟩) ?_
      rintro ⟨r, x⟩ ⟨r', x'⟩ ⟨⟨q1, q2, q3⟩, q4⟩
      dsimp only at q1 q2 q3 q4 ⊢
      obtain ⟨rfl, rfl⟩ := RS.mk.inj q2
      exact .pure ⟨rfl, ⟨q1, rfl, q3⟩, q4⟩
  | body off len =>
    simp only [recvCallback, onBody]
    refine .same fun _ => .same fun _ => ?_
    cases resp.pBody with
    | none =>
      dsimp only
      split
      · exact .same fun _ => .same fun _ => .same fun _ => .same fun _ => .pure ⟨rfl, ⟨h1, rfl, h2⟩, rfl⟩
      · exact .pure ⟨rfl, ⟨h1, rfl, h2⟩, rfl⟩
    | some q =>
      dsimp only
      split
      · exact .same fun _ => .same fun _ => .same fun _ => .same fun _ => .pure ⟨rfl, ⟨h1, rfl, h2⟩, rfl⟩
      · exact .pure ⟨rfl, ⟨h1, rfl, h2⟩, rfl⟩

theorem runTree_unset (cfg : Cfg) (b base : Nat) (data : Bytes) (t : PTree S) : ∀ h h' : RS S σ, NoHdr h h' → h.ctx.bound = true →
    Unset (runTree b base data (recvCallback cfg b base) t h) (runTree b base data (recvCallback cfg b base) t h')
      fun x y => x.1 = y.1 ∧ x.2.1 = y.2.1 ∧ x.2.2.1 = y.2.2.1 ∧ NoHdr x.2.2.2 y.2.2.2 ∧ x.2.2.2.ctx.bound = true := by
  induction t with
  | done er ep s => intro h h' hs hb; exact .same fun _ => .pure ⟨rfl, rfl, rfl, hs, hb⟩
  | call e k ih =>
    intro h h' hs hb
    refine .same fun _ => .bind (recvCallback_unset cfg b base e h h' hs) ?_
    rintro ⟨r, h1⟩ ⟨r', h1'⟩ ⟨hr, hs1, hb1⟩
    dsimp only at hr
    subst hr
    exact .same fun _ => .same fun _ => ih r h1 h1' hs1 (hb1.trans hb)

theorem NoHdr.bind {h h' : RS S σ} (hs : NoHdr h h') : NoHdr (bindResponse h) (bindResponse h') ∧ (bindResponse h).ctx.bound = true := by
  obtain ⟨h1, rfl, h2⟩ := hs
  obtain ⟨resp, ctx⟩ := h
  unfold bindResponse
  dsimp only at h1 h2 ⊢
  cases hb : ctx.bound with
  | false => exact ⟨⟨h1, rfl, fun _ => rfl⟩, rfl⟩
  | true => exact ⟨⟨h1, rfl, h2⟩, hb⟩

theorem parse_unset (P : Parser) (cfg : Cfg) (b : Nat) (h h' : RS P.St σ) (n : Nat) (hs : NoHdr h h') :
    Unset (parseHttpResponse P cfg b h n) (parseHttpResponse P cfg b h' n) fun x y => x.1 = y.1 ∧ NoHdr x.2 y.2 ∧ x.2.ctx.bound = true := by
  obtain ⟨hst, hb⟩ := hs.bind
  unfold parseHttpResponse
  dsimp only
  have hctx : (bindResponse h').ctx = (bindResponse h).ctx := by rw [hst.2.1]
  rw [hctx]
  cases (bindResponse h).ctx.cur with
  | none => exact .crash
  | some start =>
    dsimp only
    refine .same fun _ => .same fun _ => .same fun _ => .bind (runTree_unset _ _ _ _ _ _ _ hst hb) ?_
    rintro ⟨er, ep, s, h1⟩ ⟨er', ep', s', h1'⟩ ⟨e1, e2, e3, ⟨q1, q2, q3⟩, q4⟩
    dsimp only at e1 e2 e3 q1 q2 q3 q4
    subst e1 e2 e3 q2
    exact .pure ⟨rfl, ⟨q1, rfl, q3⟩, q4⟩

/-- Something has been parsed, or the response object is as it was. -/
def Touched (r0 : Resp σ) (h : RS S σ) : Prop := h.ctx.bound = true ∨ (h.resp = r0 ∧ h.ctx.cur = none)

theorem recvLoop_unset (P : Parser) (cfg : Cfg) (recv : σ → Nat → Int × Bytes × σ) (timeout : UInt32) (b fuel : Nat) : ∀ total last (r0 : Resp σ) (h h' : RS P.St σ),
    NoHdr h h' → Touched r0 h → Unset (recvLoop P cfg recv timeout b fuel total last h) (recvLoop P cfg recv timeout b fuel total last h')
      fun x y => x.1 = y.1 ∧ x.2.1 = y.2.1 ∧ NoHdr x.2.2 y.2.2 ∧ Touched r0 x.2.2 := by
  induction fuel with
  | zero => intro total last r0 h h' hs ht; exact fun w => .inr ⟨rfl, trivial⟩
  | succ n ih =>
    intro total last r0 h h' hs ht
    have hs0 := hs
    obtain ⟨_, hs2, _⟩ := hs
    unfold recvLoop
    have h1 : h'.resp.bufferLen = h.resp.bufferLen := by rw [hs2]
    have h2 : h'.resp.getTime = h.resp.getTime := by rw [hs2]
    have h3 : h'.ctx = h.ctx := by rw [hs2]
    rw [h1, h2, h3]
    refine .same fun w => .same fun blk => .same fun _ => .same fun _ => .same fun _ => ?_
    dsimp only
    split
    · exact .pure ⟨rfl, rfl, hs0, ht⟩
    · split
      · refine .same fun now => .bind (parse_unset P cfg b h h' _ hs0) ?_
        rintro ⟨st, g⟩ ⟨st', g'⟩ ⟨e1, hs', hb'⟩
        dsimp only at e1 hs' ⊢
        subst e1
        rw [show g'.resp.bufferLen = g.resp.bufferLen by rw [hs'.2.1], show g'.ctx = g.ctx by rw [hs'.2.1]]
        split
        · exact ih _ _ _ _ _ hs' (.inl hb')
        · exact .pure ⟨rfl, rfl, hs', .inl hb'⟩
      · refine .same fun now => ?_
        split
        · refine .bind (parse_unset P cfg b h h' _ hs0) ?_
          rintro ⟨st, g⟩ ⟨st', g'⟩ ⟨e1, hs', hb'⟩
          dsimp only at e1 hs'
          subst e1
          exact .pure ⟨rfl, rfl, hs', .inl hb'⟩
        · split
          · exact ih _ _ _ _ _ hs0 ht
          · exact .pure ⟨rfl, rfl, hs0, ht⟩

theorem finishReceive_unset (cfg : Cfg) (st : Status) (total : Nat) (r0 : Resp σ) (h h' : RS S σ) (hs : NoHdr h h') (ht : Touched r0 h) :
    Unset (finishReceive cfg st total h) (finishReceive cfg st total h') fun x y => x.1 = y.1 ∧ x.2.pHeaderParsingCallback = none ∧
      y.2 = { x.2 with pHeaderParsingCallback := some .null } ∧ (x.2.headerCount = 0 ∨ x.2 = r0) := by
  obtain ⟨h1, rfl, h2⟩ := hs
  unfold finishReceive
  dsimp only
  refine .bind (R := fun x y => x.1 = y.1 ∧ x.2.resp.pHeaderParsingCallback = none ∧ y.2 = ⟨{ x.2.resp with pHeaderParsingCallback := some .null }, x.2.ctx⟩ ∧
    (x.2.resp.headerCount = 0 ∨ x.2.resp = r0)) ?_ ?_
  · have h3 : h.resp.headerCount = 0 ∨ h.resp = r0 := ht.imp h2 And.left
    split
    · cases hc : h.ctx.cur with
      | none => exact .crash
      | some cur =>
        refine .pure ⟨rfl, h1, rfl, .inl ?_⟩
        rcases ht with hb | ⟨_, hn⟩
        · exact h2 hb
        · rw [hn] at hc; cases hc
    · exact .pure ⟨rfl, h1, rfl, h3⟩
  · rintro ⟨s1, g⟩ ⟨s1', g'⟩ ⟨e1, q1, q2, q3⟩
    dsimp only at e1 q1 q2 q3 ⊢
    subst e1 q2
    split
    · refine .bind (R := Eq) ?_ ?_
      · unfold getFinalResponseStatus
        exact .of (.refl _)
      · rintro s2 _ rfl
        exact .pure ⟨rfl, q1, rfl, q3⟩
    · exact .pure ⟨rfl, q1, rfl, q3⟩

end CoreHttp

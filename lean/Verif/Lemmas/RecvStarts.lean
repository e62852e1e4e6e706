import Verif.Lemmas.RecvStep
import Verif.Spec.Folded

/-! # Where reported values begin -/

namespace CoreHttp
open Spec
variable {σ S : Type}

theorem reportedAt_append (a b : List (Ev PLog)) : reportedAt (a ++ b) = reportedAt a ++ reportedAt b := by
  induction a with
  | nil => rfl
  | cons x xs ih => cases x <;> simp [reportedAt, ih]

theorem pieces_snoc (os : List PObs) (o : PObs) : pieces (os ++ [o]) = (pieces os).step o := by simp [pieces]

/-- The pending header of the parsing context. -/
def Matches (s : Pieces) (c : PCtx S) : Prop := c.lastField.isSome = s.field ∧ c.lastValue = s.value.head?.map Prod.fst

theorem processCompleteHeader_pieces {cfg : Cfg} {b : Nat} {g g' : RS S σ} {u u' : World PLog σ} {s : Pieces}
    (hg : processCompleteHeader cfg b g u = (.ok g', u')) (hs : Matches s g.ctx) :
    Matches s.flush g'.ctx ∧ ∃ d hl, s.flush.done = s.done ++ d ∧ u'.log = u.log ++ hl ∧
      reportedAt hl = if g.resp.pHeaderParsingCallback.isSome then d.map begins else [] := by
  obtain ⟨hs1, hs2⟩ := hs
  unfold processCompleteHeader at hg
  cases hlf : g.ctx.lastField with
  | none =>
    simp only [hlf, M.pure_apply, Prod.mk.injEq, Run.ok.injEq] at hg
    obtain ⟨rfl, rfl⟩ := hg
    rw [hlf] at hs1
    have hfl : s.flush = s := by unfold Pieces.flush; rw [← hs1]; rfl
    rw [hfl]
    exact ⟨⟨by rw [hlf]; exact hs1, hs2⟩, [], [], by simp, by simp, by simp [reportedAt]⟩
  | some f =>
    rw [hlf] at hs1
    cases hlv : g.ctx.lastValue with
    | none =>
      simp only [hlf, hlv, M.pure_apply, Prod.mk.injEq, Run.ok.injEq] at hg
      obtain ⟨rfl, rfl⟩ := hg
      rw [hlv] at hs2
      have hs3 : s.value = [] := by cases hv : s.value <;> rw [hv] at hs2 <;> simp_all
      have hfl : s.flush = s := by unfold Pieces.flush; rw [← hs1, hs3]; rfl
      rw [hfl]
      exact ⟨⟨by rw [hlf]; exact hs1, by rw [hlv]; exact hs2⟩, [], [], by simp, by simp, by simp [reportedAt]⟩
    | some x =>
      rw [hlv] at hs2
      obtain ⟨n, xs, hs3⟩ : ∃ n xs, s.value = (x, n) :: xs := by
        cases hv : s.value with
        | nil => rw [hv] at hs2; cases hs2
        | cons y ys => obtain ⟨y1, y2⟩ := y; rw [hv] at hs2; simp at hs2; exact ⟨y2, ys, by rw [hs2]⟩
      have hfl : s.flush = ⟨s.done ++ [(x, n) :: xs], false, []⟩ := by unfold Pieces.flush; rw [← hs1, hs3]; rfl
      rw [hfl]
      simp only [hlf, hlv, M.bind_apply, mAssert, M.ofRun_apply, cAssert] at hg
      by_cases hd : g.resp.headerCount < 2 ^ cfg.sizeBits - 1
      · simp only [hd, decide_true, if_true] at hg
        cases hcb : g.resp.pHeaderParsingCallback with
        | none =>
          simp only [hcb, M.pure_apply, Prod.mk.injEq, Run.ok.injEq] at hg
          obtain ⟨rfl, rfl⟩ := hg
          exact ⟨⟨rfl, rfl⟩, [(x, n) :: xs], [], rfl, by simp, by simp [reportedAt]⟩
        | some cb =>
          cases cb with
          | null => simp [hcb, M.bind_apply] at hg
          | user cb =>
          simp only [hcb, M.bind_apply, M.world_apply, M.ofRun_apply] at hg
          rcases h1 : memRead (u.mem b) f g.ctx.lastFieldLen with y | y | _ <;> rw [h1] at hg <;> try (simp at hg; done)
          dsimp only at hg
          rcases h2 : memRead (u.mem b) x g.ctx.lastValueLen with z | z | _ <;> rw [h2] at hg <;> try (simp at hg; done)
          simp only [M.setEnv_apply, M.emit_apply, M.pure_apply, Prod.mk.injEq, Run.ok.injEq] at hg
          obtain ⟨rfl, rfl⟩ := hg
          exact ⟨⟨rfl, rfl⟩, [(x, n) :: xs], _, rfl, rfl, by simp [reportedAt, begins]⟩
      · simp [hd] at hg

/-- The effect of a callback. -/
theorem callback_pieces {cfg : Cfg} {b base : Nat} {e : PEv} {h h' : RS S σ} {r : CbRet} {w w' : World PLog σ} {s : Pieces} {data : Bytes}
    (hr : recvCallback cfg b base e h w = (.ok (r, h'), w')) (hs : Matches s h.ctx) :
    Matches (s.step (e.observe base data)) h'.ctx ∧ ∃ d hl, (s.step (e.observe base data)).done = s.done ++ d ∧ w'.log = w.log ++ hl ∧
      reportedAt hl = if h.resp.pHeaderParsingCallback.isSome then d.map begins else [] := by
  have hA : ∀ {α : Type} (l : Nat) (c : Bool) (k : Unit → M PLog σ α) (x : Run α × World PLog σ) (u : World PLog σ) (a : α) (u' : World PLog σ),
      ((mAssert l c >>= k) u = (.ok a, u')) → k () u = (.ok a, u') := by
    intro α l c k x u a u' hx
    cases c
    · simp [mAssert, cAssert] at hx
    · simpa using hx
  have hnil : ∀ c : Bool, reportedAt [] = if c then ([] : List (List (Nat × Nat))).map begins else [] := by intro c; cases c <;> rfl
  cases e with
  | messageBegin =>
    simp only [recvCallback, onMessageBegin, M.pure_apply, Prod.mk.injEq, Run.ok.injEq] at hr
    obtain ⟨⟨_, rfl⟩, rfl⟩ := hr
    exact ⟨hs, [], [], by simp [Pieces.step, PEv.observe], by simp, hnil _⟩
  | messageComplete =>
    simp only [recvCallback, onMessageComplete, M.pure_apply, Prod.mk.injEq, Run.ok.injEq] at hr
    obtain ⟨⟨_, rfl⟩, rfl⟩ := hr
    exact ⟨hs, [], [], by simp [Pieces.step, PEv.observe], by simp, hnil _⟩
  | status off len code =>
    have := hA _ _ _ (.more, w) _ _ _ hr
    simp only [M.pure_apply, Prod.mk.injEq, Run.ok.injEq] at this
    obtain ⟨⟨_, rfl⟩, rfl⟩ := this
    exact ⟨⟨rfl, rfl⟩, [], [], by simp [Pieces.step, PEv.observe], by simp, hnil _⟩
  | statusComplete code =>
    have := hA _ _ _ (.more, w) _ _ _ hr
    simp only [M.pure_apply, Prod.mk.injEq, Run.ok.injEq] at this
    obtain ⟨⟨_, rfl⟩, rfl⟩ := this
    exact ⟨⟨rfl, rfl⟩, [], [], by simp [Pieces.step, PEv.observe], by simp, hnil _⟩
  | headerValue off len =>
    have := hA _ _ _ (.more, w) _ _ _ hr
    simp only [M.pure_apply, Prod.mk.injEq, Run.ok.injEq] at this
    obtain ⟨⟨_, rfl⟩, rfl⟩ := this
    refine ⟨?_, [], [], by simp [Pieces.step, PEv.observe], by simp, hnil _⟩
    obtain ⟨hs1, hs2⟩ := hs
    refine ⟨?_, ?_⟩
    · simp only [Pieces.step, PEv.observe]
      cases hlv : h.ctx.lastValue <;> exact hs1
    · simp only [Pieces.step, PEv.observe, PEv.span]
      cases hv : s.value with
      | nil => rw [hv] at hs2; simp only [List.head?_nil, Option.map_none] at hs2; rw [hs2]; rfl
      | cons y ys => rw [hv] at hs2; simp only [List.head?_cons, Option.map_some] at hs2; rw [hs2]; simpa using hs2
  | body off len =>
    have h1 := hA _ _ _ (.more, w) _ _ _ hr
    have h2 := hA _ _ _ (.more, w) _ _ _ h1
    have hfin : ∀ (p n : Nat) (k : RS S σ), k.ctx.lastField = h.ctx.lastField ∧ k.ctx.lastValue = h.ctx.lastValue →
        (if base + off > p + n then
          (do let w ← M.world
              let bytes ← M.ofRun (memRead (w.mem b) (base + off) len)
              let blk ← M.ofRun (memWrite (w.mem b) (p + n) bytes)
              M.setMem (w.mem.set b blk)
              pure (CbRet.continue_, k) : M PLog σ (CbRet × RS S σ)) else pure (CbRet.continue_, k)) w = (.ok (r, h'), w') →
        h'.ctx.lastField = h.ctx.lastField ∧ h'.ctx.lastValue = h.ctx.lastValue ∧ w'.log = w.log := by
      intro p n k hk hx
      split at hx
      · simp only [M.bind_apply, M.world_apply, M.ofRun_apply] at hx
        rcases q1 : memRead (w.mem b) (base + off) len with y | y | _ <;> rw [q1] at hx <;> try (simp at hx; done)
        dsimp only at hx
        rcases q2 : memWrite (w.mem b) (p + n) y with z | z | _ <;> rw [q2] at hx <;> try (simp at hx; done)
        simp only [M.setMem_apply, M.pure_apply, Prod.mk.injEq, Run.ok.injEq] at hx
        obtain ⟨⟨_, rfl⟩, rfl⟩ := hx
        exact ⟨hk.1, hk.2, rfl⟩
      · simp only [M.pure_apply, Prod.mk.injEq, Run.ok.injEq] at hx
        obtain ⟨⟨_, rfl⟩, rfl⟩ := hx
        exact ⟨hk.1, hk.2, rfl⟩
    have hres : h'.ctx.lastField = h.ctx.lastField ∧ h'.ctx.lastValue = h.ctx.lastValue ∧ w'.log = w.log := by
      cases hpb : h.resp.pBody with
      | none => simp only [hpb] at h2; refine hfin _ _ _ ?_ h2; exact ⟨rfl, rfl⟩
      | some p => simp only [hpb] at h2; refine hfin _ _ _ ?_ h2; exact ⟨rfl, rfl⟩
    obtain ⟨e1, e2, e3⟩ := hres
    refine ⟨⟨by rw [e1]; exact hs.1, by rw [e2]; exact hs.2⟩, [], [], by simp [Pieces.step, PEv.observe], by simp [e3], hnil _⟩
  | headerField off len =>
    have h2 := hA _ _ _ (.more, w) _ _ _ hr
    simp only [M.bind_apply] at h2
    generalize hg : (⟨{ h.resp with pHeaders := headersStart h.resp.pHeaders (base + off) }, { h.ctx with cur := some (base + off + len) }⟩ : RS S σ) = g at h2
    have hgs : Matches s g.ctx := by rw [← hg]; exact hs
    have hgc : g.resp.pHeaderParsingCallback = h.resp.pHeaderParsingCallback := by rw [← hg]
    rcases hq : processCompleteHeader cfg b g w with ⟨x | x | _, u⟩ <;> rw [hq] at h2 <;> try (simp at h2; done)
    obtain ⟨⟨m1, m2⟩, d, hl, k1, k2, k3⟩ := processCompleteHeader_pieces hq hgs
    rw [hgc] at k3
    dsimp only at h2
    have hout : h'.ctx.lastField.isSome = true ∧ h'.ctx.lastValue = x.ctx.lastValue ∧ w' = u := by
      cases hlf : x.ctx.lastField with
      | none =>
        simp only [hlf, M.pure_apply, Prod.mk.injEq, Run.ok.injEq] at h2
        obtain ⟨⟨_, rfl⟩, rfl⟩ := h2
        exact ⟨rfl, rfl, rfl⟩
      | some y =>
        simp only [hlf] at h2
        have h3 := hA _ _ _ (.more, w) _ _ _ h2
        simp only [M.pure_apply, Prod.mk.injEq, Run.ok.injEq] at h3
        obtain ⟨⟨_, rfl⟩, rfl⟩ := h3
        exact ⟨by simp [hlf], rfl, rfl⟩
    obtain ⟨o1, o2, rfl⟩ := hout
    exact ⟨⟨o1, o2.trans m2⟩, d, hl, k1, k2, k3⟩
  | headersComplete at_ cl cc ka =>
    simp only [recvCallback, onHeadersComplete] at hr
    cases hc : h.ctx.cur with
    | none => simp [hc] at hr
    | some c =>
      simp only [hc] at hr
      have h1 := hA _ _ _ (.more, w) _ _ _ hr
      have h2 := hA _ _ _ (.more, w) _ _ _ h1
      simp only [M.bind_apply] at h2
      have hhl : ∀ n u, (headersLength h.resp.pHeaders c : M PLog σ Nat) w = (.ok n, u) → u = w := by
        intro n u hx
        unfold headersLength at hx
        cases hp : h.resp.pHeaders with
        | none => simp only [hp, M.pure_apply, Prod.mk.injEq] at hx; exact hx.2.symm
        | some p =>
          simp only [hp] at hx
          have h3 := hA _ _ _ (.more, w) _ _ _ hx
          simp only [M.pure_apply, Prod.mk.injEq] at h3; exact h3.2.symm
      rcases hq : (headersLength h.resp.pHeaders c : M PLog σ Nat) w with ⟨n | n | _, u⟩ <;> rw [hq] at h2 <;> try (simp at h2; done)
      obtain rfl := hhl _ _ hq
      dsimp only at h2
      generalize hg : (⟨_, h.ctx⟩ : RS S σ) = g at h2
      have hgs : Matches s g.ctx := by rw [← hg]; exact hs
      have hgc : g.resp.pHeaderParsingCallback = h.resp.pHeaderParsingCallback := by rw [← hg]
      rcases hq2 : processCompleteHeader cfg b g u with ⟨x | x | _, u2⟩ <;> rw [hq2] at h2 <;> try (simp at h2; done)
      obtain ⟨m, d, hl, k1, k2, k3⟩ := processCompleteHeader_pieces hq2 hgs
      rw [hgc] at k3
      simp only [M.pure_apply, Prod.mk.injEq, Run.ok.injEq] at h2
      obtain ⟨⟨_, rfl⟩, rfl⟩ := h2
      exact ⟨m, d, hl, k1, k2, k3⟩

/-- The view and the pieces describe the same headers. -/
structure Vals (stream : Bytes) (v : View) (s : Pieces) : Prop where
  done : v.headers.map (·.2.1) = s.done.map (bytesAt stream)
  none_ : s.field = false → v.pending = none ∧ s.value = []
  some_ : s.field = true → ∃ f, v.pending = some (f, if s.value = [] then none else some (bytesAt stream s.value))

theorem Vals.flush {stream : Bytes} {v : View} {s : Pieces} (h : Vals stream v s) : Vals stream v.flush s.flush := by
  cases hf : s.field with
  | false =>
    obtain ⟨h1, h2⟩ := h.none_ hf
    have e1 : v.flush = v := by unfold View.flush; rw [h1]
    have e2 : s.flush = s := by unfold Pieces.flush; rw [hf]
    rw [e1, e2]; exact h
  | true =>
    obtain ⟨f, h1⟩ := h.some_ hf
    cases hv : s.value with
    | nil =>
      rw [hv] at h1
      have e1 : v.flush = v := by unfold View.flush; rw [h1]; rfl
      have e2 : s.flush = s := by unfold Pieces.flush; rw [hf, hv]
      rw [e1, e2]; exact h
    | cons x xs =>
      rw [hv, if_neg (by simp)] at h1
      have e1 : v.flush = { v with headers := v.headers ++ [(f, bytesAt stream (x :: xs), v.statusCode)], pending := none } := by
        unfold View.flush; rw [h1]
      have e2 : s.flush = ⟨s.done ++ [x :: xs], false, []⟩ := by unfold Pieces.flush; rw [hf, hv]
      rw [e1, e2]
      exact ⟨by simp [h.done], fun _ => ⟨rfl, rfl⟩, by simp⟩

theorem Vals.step {stream : Bytes} {v : View} {s : Pieces} {o : PObs} (h : Vals stream v s) (ho : slice stream o.loc o.data.length = o.data)
    (hf : (∃ off len, o.ev = .headerValue off len) → s.field = true) : Vals stream (v.step o) (s.step o) := by
  cases he : o.ev with
  | headerField off len =>
    have h1 := h.flush
    simp only [View.step, Pieces.step, he]
    refine ⟨h1.done, (by simp), fun _ => ?_⟩
    dsimp only
    cases hx : s.flush.field with
    | false =>
      obtain ⟨h2, h3⟩ := h1.none_ hx
      rw [h2, h3]; exact ⟨o.data, rfl⟩
    | true =>
      obtain ⟨f, h2⟩ := h1.some_ hx
      rw [h2]; exact ⟨f ++ o.data, rfl⟩
  | headerValue off len =>
    obtain ⟨f, h2⟩ := h.some_ (hf ⟨off, len, he⟩)
    simp only [View.step, Pieces.step, he]
    refine ⟨h.done, (by dsimp only; rw [hf ⟨off, len, he⟩]; simp), fun _ => ⟨f, ?_⟩⟩
    dsimp only
    rw [if_neg (by simp), h2]
    by_cases hv : s.value = []
    · rw [if_pos hv, hv]; simp [bytesAt, ho]
    · rw [if_neg hv]; simp [bytesAt, ho]
  | headersComplete at_ cl cc ka =>
    have h1 := h.flush
    simp only [View.step, Pieces.step, he]
    exact ⟨h1.done, h1.none_, h1.some_⟩
  | status off len code => simp only [View.step, Pieces.step, he]; exact ⟨h.done, fun _ => ⟨rfl, rfl⟩, by simp⟩
  | statusComplete code => simp only [View.step, Pieces.step, he]; exact ⟨h.done, fun _ => ⟨rfl, rfl⟩, by simp⟩
  | messageBegin => simp only [View.step, Pieces.step, he]; exact ⟨h.done, h.none_, h.some_⟩
  | messageComplete => simp only [View.step, Pieces.step, he]; exact ⟨h.done, h.none_, h.some_⟩
  | body off len => simp only [View.step, Pieces.step, he]; exact ⟨h.done, h.none_, h.some_⟩

/-- What the parsing context and the trace say about values. -/
structure LocInv (cb : Bool) (evs : List (Ev PLog)) (c : PCtx S) : Prop where
  ctx : Matches (pieces (obsOf evs)) c
  at_ : reportedAt evs = if cb then (valuePieces (obsOf evs)).map begins else []
  len : lens (reported evs) = if cb then lens (view (obsOf evs)).headers else []
  vals : ∀ stream, (∀ o ∈ obsOf evs, slice stream o.loc o.data.length = o.data) → Vals stream (view (obsOf evs)) (pieces (obsOf evs))

theorem LocInv.skip {cb : Bool} {evs : List (Ev PLog)} {c : PCtx S} {e : Ev PLog} (h : LocInv cb evs c) (h1 : obsOf [e] = []) (h2 : reportedAt [e] = [])
    (h3 : reported [e] = []) : LocInv cb (evs ++ [e]) c where
  ctx := by rw [obsOf_append, h1, List.append_nil]; exact h.ctx
  at_ := by rw [reportedAt_append, h2, List.append_nil, obsOf_append, h1, List.append_nil]; exact h.at_
  len := by rw [reported_append, h3, List.append_nil, obsOf_append, h1, List.append_nil]; exact h.len
  vals := by rw [obsOf_append, h1, List.append_nil]; exact h.vals

end CoreHttp

import Verif.Spec.Shift

/-! # Runs with two clocks that differ by a constant, for C104 -/

namespace CoreHttp.Shift
open CoreHttp Spec
variable {σ : Type}

/-- Apply a function to the result of a run. -/
def mapRun {α β : Type} (f : α → β) : Run α → Run β
  | .ok a => .ok (f a)
  | .fault e => .fault e
  | .more => .more

/-- The same environment and memory; the same events since the trace was `l`, but for the clock readings. -/
structure Rel (k : UInt32) (l : List (Ev PLog)) (w W : World PLog σ) : Prop where
  env : W.env = w.env
  mem : W.mem = w.mem
  log : ∃ evs, w.log = l ++ evs ∧ W.log = l ++ evs.map (aheadEv k)

/-- Started in related worlds, `x` and `y` end in related worlds, with corresponding results, for which `Q` holds. -/
def Acts {α β : Type} (k : UInt32) (l : List (Ev PLog)) (x : M PLog σ β) (y : M PLog σ α) (f : α → β) (Q : α → Prop) : Prop :=
  ∀ w W, Rel k l w W → (x W).1 = mapRun f (y w).1 ∧ Rel k l (y w).2 (x W).2 ∧ ∀ a, (y w).1 = .ok a → Q a

variable {k : UInt32} {l : List (Ev PLog)}

theorem Rel.emit {w W : World PLog σ} (h : Rel k l w W) (e : Ev PLog) :
    Rel k l ⟨w.env, w.mem, w.log ++ [e]⟩ ⟨W.env, W.mem, W.log ++ [aheadEv k e]⟩ := by
  obtain ⟨evs, h1, h2⟩ := h.log
  exact ⟨h.env, h.mem, evs ++ [e], by simp [h1], by simp [h2]⟩

namespace Acts
variable {α β α' β' : Type}

theorem pure {a : α} {a' : β} {f : α → β} {Q : α → Prop} (h : a' = f a) (hq : Q a) :
    Acts (σ := σ) k l (Pure.pure a' : M PLog σ β) (Pure.pure a : M PLog σ α) f Q :=
  fun w W hr => ⟨by simp [mapRun, h], hr, fun b hb => by simp at hb; rw [← hb]; exact hq⟩
theorem fault {e : Fault} {f : α → β} {Q : α → Prop} : Acts (σ := σ) k l (M.fault e : M PLog σ β) (M.fault e : M PLog σ α) f Q :=
  fun w W hr => ⟨rfl, hr, fun b hb => by simp at hb⟩
theorem more {f : α → β} {Q : α → Prop} : Acts (σ := σ) k l (M.more : M PLog σ β) (M.more : M PLog σ α) f Q :=
  fun w W hr => ⟨rfl, hr, fun b hb => by simp at hb⟩
theorem ofRun (r : Run α) : Acts (σ := σ) k l (M.ofRun r) (M.ofRun r) id fun _ => True := fun w W hr => ⟨by cases r <;> rfl, hr, fun _ _ => trivial⟩
theorem assert (n : Nat) (c : Bool) : Acts (σ := σ) k l (mAssert n c) (mAssert n c) id fun _ => True := ofRun _
theorem emit (e : Ev PLog) (h : aheadEv k e = e) : Acts (σ := σ) k l (M.emit e) (M.emit e) id fun _ => True :=
  fun w W hr => ⟨rfl, by have := hr.emit e; rw [h] at this; exact this, fun _ _ => trivial⟩
theorem setMem (m : Mem) : Acts (σ := σ) k l (M.setMem m) (M.setMem m) id fun _ => True :=
  fun w W hr => ⟨rfl, ⟨hr.env, rfl, hr.log⟩, fun _ _ => trivial⟩
theorem setEnv (s : σ) : Acts k l (M.setEnv s) (M.setEnv s) id fun _ => True := fun w W hr => ⟨rfl, ⟨rfl, hr.mem, hr.log⟩, fun _ _ => trivial⟩
theorem bind {x : M PLog σ β} {y : M PLog σ α} {f : α → β} {Q : α → Prop} {q : β → M PLog σ β'} {q' : α → M PLog σ α'} {f' : α' → β'} {Q' : α' → Prop}
    (h1 : Acts k l x y f Q) (h2 : ∀ a, Q a → Acts k l (q (f a)) (q' a) f' Q') : Acts k l (x >>= q) (y >>= q') f' Q' := by
  intro w W hr
  obtain ⟨h3, h4, h5⟩ := h1 w W hr
  simp only [M.bind_apply]
  rcases hy : y w with ⟨a | e | _, w'⟩ <;> rcases hx : x W with ⟨c | e' | _, W'⟩ <;> rw [hx, hy] at h3 <;> simp only [mapRun] at h3 <;>
    (try cases h3) <;> rw [hx, hy] at h4
  · rw [hy] at h5
    exact h2 a (h5 a rfl) w' W' h4
  · exact ⟨rfl, h4, fun _ h => by simp at h⟩
  · exact ⟨rfl, h4, fun _ h => by simp at h⟩
/-- The same first step, with the same result in both. -/
theorem same {x y : M PLog σ α} {Q : α → Prop} {q : α → M PLog σ β'} {q' : α → M PLog σ α'} {f' : α' → β'} {Q' : α' → Prop}
    (h1 : Acts k l x y id Q) (h2 : ∀ a, Q a → Acts k l (q a) (q' a) f' Q') : Acts k l (x >>= q) (y >>= q') f' Q' := bind h1 h2
theorem mono {x : M PLog σ β} {y : M PLog σ α} {f : α → β} {Q Q' : α → Prop} (h : Acts k l x y f Q) (hq : ∀ a, Q a → Q' a) :
    Acts k l x y f Q' := fun w W hr => ⟨(h w W hr).1, (h w W hr).2.1, fun a ha => hq a ((h w W hr).2.2 a ha)⟩
/-- Looking at environment and memory. -/
theorem world {q : World PLog σ → M PLog σ β} {q' : World PLog σ → M PLog σ α} {f : α → β} {Q : α → Prop}
    (h : ∀ w W : World PLog σ, W.env = w.env → W.mem = w.mem → Acts k l (q W) (q' w) f Q) :
    Acts k l (M.world >>= q) (M.world >>= q') f Q := fun w W hr => h w W hr.env hr.mem w W hr
end Acts

/-- A clock of the application; the other is `k` ahead. -/
def Up (k : UInt32) (c c' : TimeFn σ) : Prop := ∃ f, c = .user f ∧ c' = aheadClock k (.user f)

theorem readClock_acts {c c' : TimeFn σ} (h : Up k c c') : Acts k l (readClock c') (readClock c) (· + k) fun _ => True := by
  obtain ⟨f, rfl, rfl⟩ := h
  intro w W hr
  unfold readClock aheadClock
  simp only [M.bind_apply, M.world_apply, M.setEnv_apply, M.emit_apply, M.pure_apply, hr.env]
  refine ⟨rfl, ?_⟩
  have hr' : Rel k l ⟨(f w.env).2, w.mem, w.log⟩ ⟨(f w.env).2, W.mem, W.log⟩ := ⟨rfl, hr.mem, hr.log⟩
  exact ⟨hr'.emit (.time (f w.env).1), fun _ _ => trivial⟩

/-- The state the callbacks work on, with the other clock. -/
def liftRS {S : Type} (k : UInt32) (h : RS S σ) : RS S σ := ⟨aheadResp k h.resp, h.ctx⟩

/-- The clock is still the same. -/
def Clk {S : Type} (c : TimeFn σ) (h : RS S σ) : Prop := h.resp.getTime = c

variable {S : Type} {b : Nat} {c : TimeFn σ}

theorem processCompleteHeader_acts (cfg : Cfg) (h : RS S σ) (hq : Clk c h) :
    Acts k l (processCompleteHeader cfg b (liftRS k h)) (processCompleteHeader cfg b h) (liftRS k) (Clk c) := by
  obtain ⟨resp, ctx⟩ := h
  obtain ⟨parser, state, bound, isHead, cur, lf, lfl, lv, lvl⟩ := ctx
  unfold processCompleteHeader liftRS
  cases lf with
  | none => exact .pure rfl hq
  | some f =>
    cases lv with
    | none => exact .pure rfl hq
    | some v =>
      refine .same (.assert _ _) fun _ _ => ?_
      cases hc : resp.pHeaderParsingCallback with
      | none =>
        simp only [aheadResp, hc]
        exact .pure (by simp [liftRS, aheadResp, hc]) hq
      | some cb =>
        cases cb with
        | null =>
          simp only [aheadResp, hc]
          exact .same (.fault (Q := fun _ => True)) fun _ _ => .pure (by simp [liftRS, aheadResp, hc]) hq
        | user cb =>
          simp only [aheadResp, hc]
          refine .world fun w W he hm => ?_
          rw [he, hm]
          refine .same (.ofRun _) fun x _ => .same (.ofRun _) fun y _ => .same (.setEnv _) fun _ _ => .same (.emit _ rfl) fun _ _ => .pure ?_ hq
          simp [liftRS, aheadResp, hc]

/-- The result of a callback, with the other clock. -/
def liftCR (k : UInt32) (x : CbRet × RS S σ) : CbRet × RS S σ := (x.1, liftRS k x.2)

theorem recvCallback_acts (cfg : Cfg) (base : Nat) (e : PEv) (h : RS S σ) (hq : Clk c h) :
    Acts k l (recvCallback cfg b base e (liftRS k h)) (recvCallback cfg b base e h) (liftCR k) (fun x => Clk c x.2) := by
  cases e with
  | messageBegin => exact .pure rfl hq
  | messageComplete => exact .pure rfl hq
  | status off len code => exact .same (.assert _ _) fun _ _ => .pure rfl hq
  | statusComplete code => exact .same (.assert _ _) fun _ _ => .pure rfl hq
  | headerField off len =>
    refine .same (.assert _ _) fun _ _ => .bind (f := liftRS k) (Q := Clk c) ?_ fun g hg => ?_
    · exact processCompleteHeader_acts cfg
        ⟨{ h.resp with pHeaders := headersStart h.resp.pHeaders (base + off) }, { h.ctx with cur := some (base + off + len) }⟩ hq
    · obtain ⟨gr, ⟨a1, a2, a3, a4, a5, lf, a6, a7, a8⟩⟩ := g
      cases lf with
      | none => exact Acts.pure (f := liftCR k) (Q := fun x => Clk c x.2) rfl hg
      | some _ => exact .same (.assert _ _) fun _ _ => Acts.pure (f := liftCR k) (Q := fun x => Clk c x.2) rfl hg
  | headerValue off len => exact .same (.assert _ _) fun _ _ => .pure rfl hq
  | headersComplete at_ cl cc ka =>
    obtain ⟨resp, ⟨a1, a2, a3, a4, cur, lf, a6, a7, a8⟩⟩ := h
    simp only [recvCallback, onHeadersComplete]
    cases cur with
    | none => exact Acts.fault
    | some cur =>
      refine .same (.assert _ _) fun _ _ => .same (.assert _ _) fun _ _ => .same (Q := fun _ => True) ?_ fun n _ => ?_
      · show Acts k l (headersLength resp.pHeaders cur) _ _ _
        unfold headersLength
        cases resp.pHeaders with
        | none => exact .pure rfl trivial
        | some p => exact .same (.assert _ _) fun _ _ => .pure rfl trivial
      · refine .bind (f := liftRS k) (Q := Clk c) ?_ fun g hg => .pure rfl hg
        exact processCompleteHeader_acts cfg ⟨{ resp with
          areHeadersComplete := 1
          headersLen := n
          contentLength := if cl ≠ 18446744073709551615 then cl.toNat % 2 ^ cfg.sizeBits else 0
          respFlags := (resp.respFlags ||| (if cc then CONNECTION_CLOSE_FLAG else 0)) ||| (if ka then CONNECTION_KEEP_ALIVE_FLAG else 0) },
          ⟨a1, a2, a3, a4, some cur, lf, a6, a7, a8⟩⟩ hq
  | body off len =>
    obtain ⟨resp, ctx⟩ := h
    simp only [recvCallback, onBody]
    refine .same (.assert _ _) fun _ _ => .same (.assert _ _) fun _ _ => ?_
    have key : ∀ q n : Nat, Acts k l
        (if base + off > q + n then do
            let w ← M.world
            let bytes ← M.ofRun (memRead (w.mem b) (base + off) len)
            let blk ← M.ofRun (memWrite (w.mem b) (q + n) bytes)
            M.setMem (w.mem.set b blk)
            (pure (CbRet.continue_, ⟨{ aheadResp k resp with pBody := some q, bodyLen := szAdd cfg n len }, { ctx with cur := some (base + off + len) }⟩) :
              M PLog σ (CbRet × RS S σ))
          else pure (CbRet.continue_, ⟨{ aheadResp k resp with pBody := some q, bodyLen := szAdd cfg n len }, { ctx with cur := some (base + off + len) }⟩))
        (if base + off > q + n then do
            let w ← M.world
            let bytes ← M.ofRun (memRead (w.mem b) (base + off) len)
            let blk ← M.ofRun (memWrite (w.mem b) (q + n) bytes)
            M.setMem (w.mem.set b blk)
            (pure (CbRet.continue_, ⟨{ resp with pBody := some q, bodyLen := szAdd cfg n len }, { ctx with cur := some (base + off + len) }⟩) :
              M PLog σ (CbRet × RS S σ))
          else pure (CbRet.continue_, ⟨{ resp with pBody := some q, bodyLen := szAdd cfg n len }, { ctx with cur := some (base + off + len) }⟩))
        (liftCR k) (fun x => Clk c x.2) := by
      intro q n
      split
      · refine .world fun w W he hm => ?_
        rw [hm]
        exact .same (.ofRun _) fun x _ => .same (.ofRun _) fun y _ => .same (.setMem _) fun _ _ => .pure rfl hq
      · exact .pure rfl hq
    obtain ⟨c1, c2, c3, c4, c5, c6, pb, c8, c9, c10, c11, c12, c13, c14⟩ := resp
    cases pb with
    | none => exact key (base + off) 0
    | some q => exact key q c8

/-- The result of a parse, with the other clock. -/
def liftTree (k : UInt32) (x : Errno × Nat × S × RS S σ) : Errno × Nat × S × RS S σ := (x.1, x.2.1, x.2.2.1, liftRS k x.2.2.2)

theorem runTree_acts (cfg : Cfg) (base : Nat) (data : Bytes) (t : PTree S) : ∀ h : RS S σ, Clk c h →
    Acts k l (runTree b base data (recvCallback cfg b base) t (liftRS k h)) (runTree b base data (recvCallback cfg b base) t h) (liftTree k)
      (fun x => Clk c x.2.2.2) := by
  induction t with
  | done er ep s => intro h hq; exact .same (.emit _ rfl) fun _ _ => .pure rfl hq
  | call e q ih =>
    intro h hq
    refine .same (.emit _ rfl) fun _ _ => .bind (recvCallback_acts cfg base e h hq) fun r hr => ?_
    refine .world fun w W he hm => ?_
    rw [hm]
    exact .same (.emit _ rfl) fun _ _ => ih r.1 r.2 hr

/-- Status and state, with the other clock. -/
def liftSR (k : UInt32) (x : Status × RS S σ) : Status × RS S σ := (x.1, liftRS k x.2)

theorem parse_acts (P : Parser) (cfg : Cfg) (h : RS P.St σ) (hq : Clk c h) (n : Nat) :
    Acts k l (parseHttpResponse P cfg b (liftRS k h) n) (parseHttpResponse P cfg b h n) (liftSR k) (fun x => Clk c x.2) := by
  have h1 : bindResponse (liftRS k h) = liftRS k (bindResponse h) := by
    unfold bindResponse
    show (if h.ctx.bound = false then _ else _) = _
    split <;> rfl
  have h2 : Clk c (bindResponse h) := by unfold bindResponse; split <;> exact hq
  unfold parseHttpResponse
  rw [h1]
  generalize bindResponse h = h at h2
  obtain ⟨resp, ⟨a1, a2, a3, a4, cur, lf, a6, a7, a8⟩⟩ := h
  cases cur with
  | none => exact Acts.fault
  | some start =>
    refine .world fun w W he hm => ?_
    simp only [hm]
    refine .same (.ofRun _) fun data _ => .same (.emit _ rfl) fun _ _ => .bind (runTree_acts cfg start data _ _ h2) fun x hx => ?_
    exact Acts.pure (f := liftSR k) (Q := fun x => Clk c x.2) rfl hx

/-- The result of the receive loop, with the other clock. -/
def liftLoop (k : UInt32) (x : Status × Nat × RS S σ) : Status × Nat × RS S σ := (x.1, x.2.1, liftRS k x.2.2)

theorem sub_shift (a c k : UInt32) : a + k - (c + k) = a - c := by
  apply UInt32.toNat_inj.mp
  simp only [UInt32.toNat_sub, UInt32.toNat_add]
  have := a.toNat_lt; have := c.toNat_lt; have := k.toNat_lt
  omega

theorem recvLoop_acts (P : Parser) (cfg : Cfg) (recv : σ → Nat → Int × Bytes × σ) (timeout : UInt32) {f : σ → UInt32 × σ} (fuel : Nat) :
    ∀ (total : Nat) (last : UInt32) (h : RS P.St σ), Clk (.user f) h →
    Acts k l (recvLoop P cfg recv timeout b fuel total (last + k) (liftRS k h)) (recvLoop P cfg recv timeout b fuel total last h)
      (liftLoop k) (fun x => Clk (.user f) x.2.2) := by
  induction fuel with
  | zero => intro _ _ _ _; exact .more
  | succ fuel ih =>
    intro total last h hq
    have hup : Up k h.resp.getTime (liftRS k h).resp.getTime := ⟨f, hq, congrArg (aheadClock k) hq⟩
    unfold recvLoop
    refine .world fun w W he hm => ?_
    have hl : (liftRS k h).resp.bufferLen = h.resp.bufferLen := rfl
    simp only [hm, he, hl]
    generalize hR : recv w.env (h.resp.bufferLen - total) = R
    obtain ⟨n, bs, e'⟩ := R
    refine .same (.ofRun _) fun blk _ => .same (.setEnv _) fun _ _ => .same (.setMem _) fun _ _ => .same (.emit _ rfl) fun _ _ => ?_
    by_cases c1 : n < 0
    · rw [if_pos c1, if_pos c1]
      exact Acts.pure (f := liftLoop k) rfl hq
    · rw [if_neg c1, if_neg c1]
      by_cases c2 : n > 0
      · rw [if_pos c2, if_pos c2]
        refine .bind (readClock_acts hup) fun now _ => .bind (parse_acts P cfg h hq _) fun x hx => ?_
        show Acts k l (if x.1 = .success ∧ x.2.ctx.state ≠ .complete ∧ total + n.toNat < x.2.resp.bufferLen then
          recvLoop P cfg recv timeout b fuel (total + n.toNat) (now + k) (liftRS k x.2) else _) _ _ _
        by_cases c3 : x.1 = .success ∧ x.2.ctx.state ≠ .complete ∧ total + n.toNat < x.2.resp.bufferLen
        · rw [if_pos c3, if_pos c3]
          exact ih _ _ _ hx
        · rw [if_neg c3, if_neg c3]
          exact Acts.pure (f := liftLoop k) rfl hx
      · rw [if_neg c2, if_neg c2]
        refine .bind (readClock_acts hup) fun now _ => ?_
        rw [sub_shift]
        by_cases c3 : now - last ≥ timeout
        · rw [if_pos c3, if_pos c3]
          exact .bind (parse_acts P cfg h hq _) fun x hx => Acts.pure (f := liftLoop k) rfl hx
        · rw [if_neg c3, if_neg c3]
          show Acts k l (if h.ctx.state ≠ .complete ∧ total < h.resp.bufferLen then
            recvLoop P cfg recv timeout b fuel total (last + k) (liftRS k h) else _) _ _ _
          by_cases c4 : h.ctx.state ≠ .complete ∧ total < h.resp.bufferLen
          · rw [if_pos c4, if_pos c4]
            exact ih _ _ _ hq
          · rw [if_neg c4, if_neg c4]
            exact Acts.pure (f := liftLoop k) rfl hq

/-- Status and response object, with the other clock. -/
def liftResp (k : UInt32) (x : Status × Resp σ) : Status × Resp σ := (x.1, aheadResp k x.2)

theorem finish_acts (cfg : Cfg) (st : Status) (total : Nat) (h : RS S σ) :
    Acts k l (finishReceive cfg st total (liftRS k h)) (finishReceive cfg st total h) (liftResp k) (fun _ => True) := by
  unfold finishReceive
  refine .bind (f := liftSR k) (Q := fun _ => True) ?_ fun x hx => ?_
  · show Acts k l (if st = .parserPaused ∧ h.resp.respOptionFlags &&& DO_NOT_PARSE_BODY_FLAG ≠ 0 then _ else _) _ _ _
    obtain ⟨resp, ⟨a1, a2, a3, a4, cur, lf, a6, a7, a8⟩⟩ := h
    split
    · cases cur with
      | none => exact .fault
      | some cur => exact Acts.pure (f := liftSR k) rfl trivial
    · exact Acts.pure (f := liftSR k) rfl trivial
  · obtain ⟨st, h⟩ := x
    show Acts k l (if st = .success then _ else _) (if st = .success then _ else _) _ _
    by_cases c : st = .success
    · rw [if_pos c, if_pos c]
      refine .same (Q := fun _ => True) ?_ fun a _ => Acts.pure (f := liftResp k) rfl trivial
      exact .same (.assert _ _) fun _ _ => Acts.pure rfl trivial
    · rw [if_neg c, if_neg c]
      exact Acts.pure (f := liftResp k) rfl trivial

theorem receive_acts (P : Parser) (cfg : Cfg) (fuel : Nat) (T : Option (Transport σ)) {resp : Resp σ} (rh : Option ReqHeaders)
    {f : σ → UInt32 × σ} (hc : resp.getTime = .user f) :
    Acts k l (HTTPClient_ReceiveAndParseHttpResponse P cfg fuel T (some (aheadResp k resp)) rh)
      (HTTPClient_ReceiveAndParseHttpResponse P cfg fuel T (some resp) rh) (liftResp k) (fun _ => True) := by
  have hup : Up k resp.getTime (aheadResp k resp).getTime := ⟨f, hc, congrArg (aheadClock k) hc⟩
  unfold HTTPClient_ReceiveAndParseHttpResponse
  cases T with
  | none => exact .fault
  | some T =>
    obtain ⟨send, recv⟩ := T
    cases recv with
    | none => exact .fault
    | some recv =>
      cases rh with
      | none => exact .fault
      | some rh =>
        refine .same (Q := fun _ => True) ?_ fun ctx _ => ?_
        · unfold initializeParsingContext
          refine .same (.assert _ _) fun _ _ => ?_
          cases hp : rh.pBuffer with
          | none => exact .fault
          | some rb =>
            refine .world fun w W he hm => ?_
            simp only [hm]
            exact .same (.ofRun _) fun _ _ => .pure rfl trivial
        · refine .bind (readClock_acts hup) fun last _ => ?_
          cases hp : resp.pBuffer with
          | none =>
            simp only [aheadResp, hp]
            exact .fault
          | some b =>
            have h1 : retryTimeout (aheadResp k resp).getTime cfg.recvTimeoutMs = retryTimeout resp.getTime cfg.recvTimeoutMs := by
              show retryTimeout (aheadClock k resp.getTime) _ = _
              rw [hc]; rfl
            have h2 : (aheadResp k resp).pBuffer = some b := hp
            simp only [h1, h2]
            refine .bind (recvLoop_acts P cfg recv _ fuel 0 last ⟨resp, ctx⟩ hc) fun x hx => ?_
            exact finish_acts cfg _ _ _

theorem sendLoop_acts (send : σ → Bytes → Int × σ) {clock clock' : TimeFn σ} (hup : Up k clock clock') (t : UInt32) (fuel : Nat) :
    ∀ (off remaining : Nat) (last : UInt32),
    Acts k l (sendLoop send clock' t b fuel off remaining (last + k)) (sendLoop send clock t b fuel off remaining last)
      id (fun _ => True) := by
  induction fuel with
  | zero =>
    intro off remaining last
    unfold sendLoop
    by_cases c : remaining = 0
    · simp only [if_pos c]; exact .pure rfl trivial
    · simp only [if_neg c]; exact .more
  | succ fuel ih =>
    intro off remaining last
    unfold sendLoop
    by_cases c : remaining = 0
    · simp only [if_pos c]; exact .pure rfl trivial
    · simp only [if_neg c]
      refine .world fun w W he hm => ?_
      simp only [hm, he]
      refine .same (.ofRun _) fun data _ => ?_
      generalize send w.env data = R
      obtain ⟨n, e'⟩ := R
      refine .same (.setEnv _) fun _ _ => .same (.emit _ rfl) fun _ _ => ?_
      by_cases c1 : n < 0
      · rw [if_pos c1, if_pos c1]; exact .pure rfl trivial
      · rw [if_neg c1, if_neg c1]
        by_cases c2 : n > 0
        · rw [if_pos c2, if_pos c2]
          exact .same (.assert _ _) fun _ _ => .bind (readClock_acts hup) fun now _ => ih _ _ _
        · rw [if_neg c2, if_neg c2]
          refine .bind (readClock_acts hup) fun now _ => ?_
          rw [sub_shift]
          by_cases c3 : now - last ≥ t
          · rw [if_pos c3, if_pos c3]; exact .pure rfl trivial
          · rw [if_neg c3, if_neg c3]; exact ih _ _ _

theorem sendData_acts (cfg : Cfg) (fuel : Nat) (T : Option (Transport σ)) {clock clock' : TimeFn σ} (hup : Up k clock clock') (data : Option Nat) (len : Nat) :
    Acts k l (HTTPClient_SendHttpData cfg fuel T clock' data len) (HTTPClient_SendHttpData cfg fuel T clock data len) id (fun _ => True) := by
  unfold HTTPClient_SendHttpData
  cases T with
  | none => exact .fault
  | some T =>
    obtain ⟨send, recv⟩ := T
    cases send with
    | none => exact .fault
    | some send =>
      cases data with
      | none => exact .fault
      | some b =>
        refine .bind (readClock_acts hup) fun last _ => ?_
        have h1 : retryTimeout clock' cfg.sendTimeoutMs = retryTimeout clock cfg.sendTimeoutMs := by
          obtain ⟨f, rfl, rfl⟩ := hup; rfl
        rw [h1]
        exact sendLoop_acts send hup _ fuel _ _ _

theorem sendHeaders_acts (cfg : Cfg) (fuel : Nat) (T : Option (Transport σ)) {clock clock' : TimeFn σ} (hup : Up k clock clock') (rh : Option ReqHeaders)
    (n : Nat) (flags : UInt32) :
    Acts k l (HTTPClient_SendHttpHeaders cfg fuel T clock' rh n flags) (HTTPClient_SendHttpHeaders cfg fuel T clock rh n flags) id (fun _ => True) := by
  unfold HTTPClient_SendHttpHeaders
  cases T with
  | none => exact .fault
  | some T =>
    obtain ⟨send, recv⟩ := T
    cases send with
    | none => exact .fault
    | some send =>
      cases rh with
      | none => exact .fault
      | some h =>
        refine .world fun w W he hm => ?_
        rw [hm]
        refine .same (Q := fun _ => True) ?_ fun r _ => .same (.setMem _) fun _ _ => ?_
        · split
          · exact .ofRun _
          · exact .pure rfl trivial
        · split
          · exact .same (sendData_acts cfg fuel _ hup _ _) fun st _ => .pure rfl trivial
          · exact .pure rfl trivial

theorem sendBody_acts (cfg : Cfg) (fuel : Nat) (T : Option (Transport σ)) {clock clock' : TimeFn σ} (hup : Up k clock clock') (data : Option Nat) (len : Nat) :
    Acts k l (sendHttpBody cfg fuel T clock' data len) (sendHttpBody cfg fuel T clock data len) id (fun _ => True) := by
  unfold sendHttpBody
  cases T with
  | none => exact .fault
  | some T =>
    obtain ⟨send, recv⟩ := T
    cases send with
    | none => exact .fault
    | some send =>
      cases data with
      | none => exact .fault
      | some b => exact sendData_acts cfg fuel _ hup _ _

theorem sendRequest_acts (cfg : Cfg) (fuel : Nat) (T : Option (Transport σ)) {clock clock' : TimeFn σ} (hup : Up k clock clock') (rh : Option ReqHeaders)
    (data : Option Nat) (n : Nat) (flags : UInt32) :
    Acts k l (sendHttpRequest cfg fuel T clock' rh data n flags) (sendHttpRequest cfg fuel T clock rh data n flags) id (fun _ => True) := by
  unfold sendHttpRequest
  refine .same (.assert _ _) fun _ _ => .same (.assert _ _) fun _ _ => .same (.assert _ _) fun _ _ => .same (Q := fun _ => True) ?_ fun _ _ => ?_
  · obtain ⟨f, rfl, rfl⟩ := hup; exact .assert _ _
  refine .same (sendHeaders_acts cfg fuel T hup rh n flags) fun r hr => ?_
  by_cases c : r.1 = .success
  · rw [if_pos c, if_pos c]
    cases data with
    | none => exact .pure rfl trivial
    | some b => exact .same (sendBody_acts cfg fuel T hup (some b) n) fun st _ => .pure rfl trivial
  · rw [if_neg c, if_neg c]
    exact .pure rfl trivial

/-- The result of HTTPClient_Send, with the other clock. -/
def liftSend (k : UInt32) (x : Status × Option ReqHeaders × Option (Resp σ)) : Status × Option ReqHeaders × Option (Resp σ) :=
  (x.1, x.2.1, x.2.2.map (aheadResp k))

theorem send_acts (P : Parser) (cfg : Cfg) (fuel : Nat) (T : Option (Transport σ)) (rh : Option ReqHeaders) (data : Option Nat) (n : Nat)
    {resp : Resp σ} (flags : UInt32) {f : σ → UInt32 × σ} (hc : resp.getTime = .user f) :
    Acts k l (HTTPClient_Send P cfg fuel T rh data n (some (aheadResp k resp)) flags)
      (HTTPClient_Send P cfg fuel T rh data n (some resp) flags) (liftSend k) (fun _ => True) := by
  have out : ∀ st, Acts (σ := σ) k l (Pure.pure (st, rh, some (aheadResp k resp))) (Pure.pure (st, rh, some resp)) (liftSend k) (fun _ => True) :=
    fun st => .pure rfl trivial
  unfold HTTPClient_Send
  cases T with
  | none => exact out _
  | some T =>
    dsimp only
    by_cases c1 : T.send.isNone
    · simp only [if_pos c1]; exact out _
    rw [if_neg c1, if_neg c1]
    by_cases c2 : T.recv.isNone
    · rw [if_pos c2, if_pos c2]; exact out _
    rw [if_neg c2, if_neg c2]
    cases rh with
    | none => exact out _
    | some h =>
      dsimp only
      by_cases c3 : h.pBuffer.isNone
      · rw [if_pos c3, if_pos c3]; exact out _
      rw [if_neg c3, if_neg c3]
      by_cases c4 : h.headersLen < MINIMUM_REQUEST_LINE_LENGTH
      · rw [if_pos c4, if_pos c4]; exact out _
      rw [if_neg c4, if_neg c4]
      by_cases c5 : h.headersLen > h.bufferLen
      · rw [if_pos c5, if_pos c5]; exact out _
      rw [if_neg c5, if_neg c5]
      have e3 : (aheadResp k resp).pBuffer = resp.pBuffer := rfl
      have e4 : (aheadResp k resp).bufferLen = resp.bufferLen := rfl
      simp only [e3, e4]
      by_cases c6 : resp.pBuffer.isNone
      · rw [if_pos c6, if_pos c6]; exact out _
      rw [if_neg c6, if_neg c6]
      by_cases c7 : resp.bufferLen = 0
      · rw [if_pos c7, if_pos c7]; exact out _
      rw [if_neg c7, if_neg c7]
      by_cases c8 : data.isNone ∧ n > 0
      · rw [if_pos c8, if_pos c8]; exact out _
      rw [if_neg c8, if_neg c8]
      by_cases c9 : n > 2147483647
      · rw [if_pos c9, if_pos c9]; exact out _
      rw [if_neg c9, if_neg c9]
      clear out
      have fin : Acts k l
          (do
            let (st, orh) ← sendHttpRequest cfg fuel (some T) (aheadResp k resp).getTime (some h) data n flags
            if st = .success then do
              let (st, resp) ← HTTPClient_ReceiveAndParseHttpResponse P cfg fuel (some T) (some (aheadResp k resp)) orh
              pure (st, orh, some resp)
            else pure (st, orh, some (aheadResp k resp)))
          (do
            let (st, orh) ← sendHttpRequest cfg fuel (some T) resp.getTime (some h) data n flags
            if st = .success then do
              let (st, resp) ← HTTPClient_ReceiveAndParseHttpResponse P cfg fuel (some T) (some resp) orh
              pure (st, orh, some resp)
            else pure (st, orh, some resp))
          (liftSend k) (fun _ => True) := by
        have hup : Up k resp.getTime (aheadResp k resp).getTime := ⟨f, hc, congrArg (aheadClock k) hc⟩
        refine .same (sendRequest_acts cfg fuel (some T) hup (some h) data n flags) fun x hx => ?_
        obtain ⟨st, orh⟩ := x
        dsimp only
        by_cases c : st = .success
        · rw [if_pos c, if_pos c]
          exact .bind (receive_acts P cfg fuel (some T) orh hc) fun y hy => .pure rfl trivial
        · rw [if_neg c, if_neg c]
          exact .pure rfl trivial
      obtain ⟨d1, d2, d3, clk, d5, d6, d7, d8, d9, d10, d11, d12, d13, d14⟩ := resp
      obtain rfl : clk = .user f := hc
      exact fin

end CoreHttp.Shift

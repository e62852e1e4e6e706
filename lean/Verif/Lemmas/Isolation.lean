import Verif.Spec.Isolation

/-! # A call as part of a larger program does what it does alone -/

namespace CoreHttp
open Spec
variable {σ Γ : Type}

/-- Apply a function to the result of a run. -/
def mapRun {α β : Type} (f : α → β) : Run α → Run β
  | .ok a => .ok (f a)
  | .fault e => .fault e
  | .more => .more

/-- The world `w` of a client alone and the world `W` of the program, from the moment when the program had environment `g0`, memory `m0` and trace
`L` and the client trace `l`. The client uses the blocks in `use` and may change those in `own`. -/
structure Rel (p : Part Γ σ) (use own : Nat → Prop) (g0 : Γ) (m0 : Mem) (l L : List (Ev PLog)) (w : World PLog σ) (W : World PLog Γ) : Prop where
  env : p.get W.env = w.env ∧ (p.Quiet → W.env = p.put g0 w.env)
  mem : ∀ i, use i → W.mem i = w.mem i
  frame : ∀ i, ¬ own i → W.mem i = m0 i
  log : ∃ evs, w.log = l ++ evs ∧ W.log = L ++ evs

/-- Started in related worlds, `x` (in the program) and `y` (alone) end in related worlds, with corresponding results, for which `Q` holds. -/
def Acts {α β : Type} (p : Part Γ σ) (use own : Nat → Prop) (g0 : Γ) (m0 : Mem) (l L : List (Ev PLog)) (x : M PLog Γ β) (y : M PLog σ α)
    (f : α → β) (Q : α → Prop) : Prop :=
  ∀ w W, Rel p use own g0 m0 l L w W → (x W).1 = mapRun f (y w).1 ∧ Rel p use own g0 m0 l L (y w).2 (x W).2 ∧ ∀ a, (y w).1 = .ok a → Q a

variable {p : Part Γ σ} {use own : Nat → Prop} {g0 : Γ} {m0 : Mem} {l L : List (Ev PLog)}

theorem Rel.get {w : World PLog σ} {W : World PLog Γ} (h : Rel p use own g0 m0 l L w W) : p.get W.env = w.env := h.env.1
theorem Rel.put {w : World PLog σ} {W : World PLog Γ} (h : Rel p use own g0 m0 l L w W) (s : σ) :
    p.get (p.put W.env s) = s ∧ (p.Quiet → p.put W.env s = p.put g0 s) :=
  ⟨p.get_put _ _, fun q => by rw [h.env.2 q, q.put_put]⟩
theorem Rel.emit {w : World PLog σ} {W : World PLog Γ} (h : Rel p use own g0 m0 l L w W) (e : Ev PLog) :
    Rel p use own g0 m0 l L ⟨w.env, w.mem, w.log ++ [e]⟩ ⟨W.env, W.mem, W.log ++ [e]⟩ := by
  obtain ⟨evs, h1, h2⟩ := h.log
  exact ⟨h.env, h.mem, h.frame, evs ++ [e], by simp [h1], by simp [h2]⟩
theorem Rel.setEnv {w : World PLog σ} {W : World PLog Γ} (h : Rel p use own g0 m0 l L w W) (s : σ) :
    Rel p use own g0 m0 l L ⟨s, w.mem, w.log⟩ ⟨p.put W.env s, W.mem, W.log⟩ := ⟨h.put s, h.mem, h.frame, h.log⟩
theorem Rel.setBlock {w : World PLog σ} {W : World PLog Γ} (h : Rel p use own g0 m0 l L w W) {b : Nat} (hb : own b) (blk : Bytes) :
    Rel p use own g0 m0 l L ⟨w.env, w.mem.set b blk, w.log⟩ ⟨W.env, W.mem.set b blk, W.log⟩ := by
  refine ⟨h.env, fun i hi => ?_, fun i hi => ?_, h.log⟩
  · by_cases e : i = b
    · subst e; simp
    · simp only [Mem.set_other _ _ e]; exact h.mem i hi
  · have e : i ≠ b := fun e => hi (e ▸ hb)
    simp only [Mem.set_other _ _ e]; exact h.frame i hi

namespace Acts
variable {α β α' β' : Type}

theorem pure {a : α} {a' : β} {f : α → β} {Q : α → Prop} (h : a' = f a) (hq : Q a) :
    Acts p use own g0 m0 l L (Pure.pure a' : M PLog Γ β) (Pure.pure a : M PLog σ α) f Q :=
  fun w W hr => ⟨by simp [mapRun, h], hr, fun b hb => by simp at hb; rw [← hb]; exact hq⟩
theorem fault {e : Fault} {f : α → β} {Q : α → Prop} : Acts p use own g0 m0 l L (M.fault e : M PLog Γ β) (M.fault e : M PLog σ α) f Q :=
  fun w W hr => ⟨rfl, hr, fun b hb => by simp at hb⟩
theorem more {f : α → β} {Q : α → Prop} : Acts p use own g0 m0 l L (M.more : M PLog Γ β) (M.more : M PLog σ α) f Q :=
  fun w W hr => ⟨rfl, hr, fun b hb => by simp at hb⟩
theorem ofRun (r : Run α) : Acts p use own g0 m0 l L (M.ofRun r : M PLog Γ α) (M.ofRun r : M PLog σ α) id fun _ => True :=
  fun w W hr => ⟨by cases r <;> rfl, hr, fun _ _ => trivial⟩
theorem assert (n : Nat) (c : Bool) : Acts p use own g0 m0 l L (mAssert n c : M PLog Γ Unit) (mAssert n c : M PLog σ Unit) id fun _ => True := ofRun _
theorem emit (e : Ev PLog) : Acts p use own g0 m0 l L (M.emit e : M PLog Γ Unit) (M.emit e : M PLog σ Unit) id fun _ => True :=
  fun w W hr => ⟨rfl, hr.emit e, fun _ _ => trivial⟩
theorem bind {x : M PLog Γ β} {y : M PLog σ α} {f : α → β} {Q : α → Prop} {k : β → M PLog Γ β'} {k' : α → M PLog σ α'} {f' : α' → β'} {Q' : α' → Prop}
    (h1 : Acts p use own g0 m0 l L x y f Q) (h2 : ∀ a, Q a → Acts p use own g0 m0 l L (k (f a)) (k' a) f' Q') :
    Acts p use own g0 m0 l L (x >>= k) (y >>= k') f' Q' := by
  intro w W hr
  obtain ⟨h3, h4, h5⟩ := h1 w W hr
  simp only [M.bind_apply]
  rcases hy : y w with ⟨a | e | _, w'⟩ <;> rcases hx : x W with ⟨c | e' | _, W'⟩ <;> rw [hx, hy] at h3 <;> simp only [mapRun] at h3 <;>
    (try cases h3) <;> rw [hx, hy] at h4 
  · rw [hy] at h5
    exact h2 a (h5 a rfl) w' W' h4
  · exact ⟨rfl, h4, fun _ h => by simp at h⟩
  · exact ⟨rfl, h4, fun _ h => by simp at h⟩
/-- The same first step, with the same result in both. -/
theorem same {x : M PLog Γ α} {y : M PLog σ α} {Q : α → Prop} {k : α → M PLog Γ β'} {k' : α → M PLog σ α'} {f' : α' → β'} {Q' : α' → Prop}
    (h1 : Acts p use own g0 m0 l L x y id Q) (h2 : ∀ a, Q a → Acts p use own g0 m0 l L (k a) (k' a) f' Q') :
    Acts p use own g0 m0 l L (x >>= k) (y >>= k') f' Q' := bind h1 h2
theorem elim {x : M PLog Γ β} {y : M PLog σ α} {f : α → β} {Q : α → Prop} (h : Acts p use own g0 m0 l L x y f Q)
    {w : World PLog σ} {W : World PLog Γ} (hr : Rel p use own g0 m0 l L w W) :
    (x W).1 = mapRun f (y w).1 ∧ Rel p use own g0 m0 l L (y w).2 (x W).2 ∧ ∀ a, (y w).1 = .ok a → Q a := h w W hr
theorem mono {x : M PLog Γ β} {y : M PLog σ α} {f : α → β} {Q Q' : α → Prop} (h : Acts p use own g0 m0 l L x y f Q) (hq : ∀ a, Q a → Q' a) :
    Acts p use own g0 m0 l L x y f Q' := fun w W hr => ⟨(h w W hr).1, (h w W hr).2.1, fun a ha => hq a ((h w W hr).2.2 a ha)⟩
/-- Looking at the world. -/
theorem world {k : World PLog Γ → M PLog Γ β} {k' : World PLog σ → M PLog σ α} {f : α → β} {Q : α → Prop}
    (h : ∀ w W, Rel p use own g0 m0 l L w W → (k W W).1 = mapRun f (k' w w).1 ∧ Rel p use own g0 m0 l L (k' w w).2 (k W W).2 ∧
      ∀ a, (k' w w).1 = .ok a → Q a) :
    Acts p use own g0 m0 l L (M.world >>= k) (M.world >>= k') f Q := fun w W hr => h w W hr
/-- Reading a block that the client uses. -/
theorem readBlock {b : Nat} (hb : use b) {k : Bytes → M PLog Γ β} {k' : Bytes → M PLog σ α} {f : α → β} {Q : α → Prop}
    (h : ∀ blk, Acts p use own g0 m0 l L (k blk) (k' blk) f Q) :
    Acts p use own g0 m0 l L (M.world >>= fun W => k (W.mem b)) (M.world >>= fun w => k' (w.mem b)) f Q :=
  world fun w W hr => by rw [hr.mem b hb]; exact h _ w W hr
end Acts

theorem readClock_acts (c : TimeFn σ) : Acts p use own g0 m0 l L (readClock (p.clock c)) (readClock c) id fun _ => True := by
  cases c with
  | null => exact .fault
  | zero => exact .same (.emit _) fun _ _ => .pure rfl trivial
  | user f =>
    refine .world fun w W hr => ?_
    simp only [M.bind_apply, M.setEnv_apply, M.emit_apply, M.pure_apply, hr.get]
    exact ⟨rfl, (hr.setEnv _).emit _, fun _ _ => trivial⟩

/-- The state the callbacks work on, in the program. -/
def liftRS {S : Type} (p : Part Γ σ) (h : RS S σ) : RS S Γ := ⟨p.response h.resp, h.ctx⟩

/-- The response buffer is still the same. -/
def Buf {S : Type} (b : Option Nat) (h : RS S σ) : Prop := h.resp.pBuffer = b

variable {S : Type} {ob : Option Nat} {b : Nat}

theorem processCompleteHeader_acts (cfg : Cfg) (hb : use b) (h : RS S σ) (hq : Buf ob h) :
    Acts p use own g0 m0 l L (processCompleteHeader cfg b (liftRS p h)) (processCompleteHeader cfg b h) (liftRS p) (Buf ob) := by
  obtain ⟨resp, ctx⟩ := h
  obtain ⟨parser, state, bound, isHead, cur, lf, lfl, lv, lvl⟩ := ctx
  unfold processCompleteHeader liftRS
  cases lf with
  | none => exact .pure rfl hq
  | some f =>
    cases lv with
    | none => exact .pure rfl hq
    | some v =>
      refine .same (.assert _ _) fun _ _ => ?_
      cases hc : resp.pHeaderParsingCallback with
      | none =>
        simp only [Part.response, hc, Option.map]
        exact .pure (by simp [liftRS, Part.response, hc]) hq
      | some cb =>
        cases cb with
        | null =>
          simp only [Part.response, hc, Option.map, Part.callback]
          exact .same (.fault (Q := fun _ => True)) fun _ _ => .pure (by simp [liftRS, Part.response, hc, Part.callback]) hq
        | user cb =>
        simp only [Part.response, hc, Option.map, Part.callback]
        refine .world fun w W hr => ?_
        simp only [M.bind_apply, M.ofRun_apply, hr.mem b hb]
        cases memRead (w.mem b) f lfl with
        | fault e => exact ⟨rfl, hr, fun _ h => by simp at h⟩
        | more => exact ⟨rfl, hr, fun _ h => by simp at h⟩
        | ok x =>
          dsimp only
          cases memRead (w.mem b) v lvl with
          | fault e => exact ⟨rfl, hr, fun _ h => by simp at h⟩
          | more => exact ⟨rfl, hr, fun _ h => by simp at h⟩
          | ok y =>
            simp only [M.setEnv_apply, M.emit_apply, M.pure_apply, Part.callback, hr.get]
            refine ⟨by simp [mapRun, liftRS, Part.response, Part.callback, hc], (hr.setEnv _).emit _, fun a h => ?_⟩
            simp at h
            rw [← h]
            exact hq

/-- The result of a callback, in the program. -/
def liftCR (p : Part Γ σ) (x : CbRet × RS S σ) : CbRet × RS S Γ := (x.1, liftRS p x.2)
/-- The response buffer is still the same. -/
def BufC (b : Option Nat) (x : CbRet × RS S σ) : Prop := x.2.resp.pBuffer = b

theorem recvCallback_acts (cfg : Cfg) (hb : use b) (ho : own b) (base : Nat) (e : PEv) (h : RS S σ) (hq : Buf ob h) :
    Acts p use own g0 m0 l L (recvCallback cfg b base e (liftRS p h)) (recvCallback cfg b base e h) (liftCR p)
      (BufC ob) := by
  cases e with
  | messageBegin => exact .pure rfl hq
  | messageComplete => exact .pure rfl hq
  | status off len code => exact .same (.assert _ _) fun _ _ => .pure rfl hq
  | statusComplete code => exact .same (.assert _ _) fun _ _ => .pure rfl hq
  | headerField off len =>
    refine .same (.assert _ _) fun _ _ => .bind (Q := Buf ob) (f := liftRS p) ?_ fun g hg => ?_
    · exact processCompleteHeader_acts cfg hb
        ⟨{ h.resp with pHeaders := headersStart h.resp.pHeaders (base + off) }, { h.ctx with cur := some (base + off + len) }⟩ hq
    · obtain ⟨gr, ⟨a1, a2, a3, a4, a5, lf, a6, a7, a8⟩⟩ := g
      cases lf with
      | none => exact Acts.pure (f := liftCR p) (Q := BufC ob) rfl hg
      | some _ => exact .same (.assert _ _) fun _ _ => Acts.pure (f := liftCR p) (Q := BufC ob) rfl hg
  | headerValue off len => exact .same (.assert _ _) fun _ _ => .pure rfl hq
  | headersComplete at_ cl cc ka =>
    obtain ⟨resp, ⟨a1, a2, a3, a4, cur, lf, a6, a7, a8⟩⟩ := h
    simp only [recvCallback, onHeadersComplete]
    cases cur with
    | none => exact Acts.fault
    | some cur =>
      refine .same (.assert _ _) fun _ _ => .same (.assert _ _) fun _ _ => .same (Q := fun _ => True) ?_ fun n _ => ?_
      · show Acts p use own g0 m0 l L (headersLength resp.pHeaders cur) _ _ _
        unfold headersLength
        cases resp.pHeaders with
        | none => exact .pure rfl trivial
        | some p => exact .same (.assert _ _) fun _ _ => .pure rfl trivial
      · refine .bind (Q := Buf ob) (f := liftRS p) ?_ fun g hg => .pure rfl hg
        exact processCompleteHeader_acts cfg hb ⟨{ resp with
          areHeadersComplete := 1
          headersLen := n
          contentLength := if cl ≠ 18446744073709551615 then cl.toNat % 2 ^ cfg.sizeBits else 0
          respFlags := (resp.respFlags ||| (if cc then CONNECTION_CLOSE_FLAG else 0)) ||| (if ka then CONNECTION_KEEP_ALIVE_FLAG else 0) },
          ⟨a1, a2, a3, a4, some cur, lf, a6, a7, a8⟩⟩ hq
  | body off len =>
    obtain ⟨resp, ctx⟩ := h
    simp only [recvCallback, onBody]
    refine .same (.assert _ _) fun _ _ => .same (.assert _ _) fun _ _ => ?_
    have key : ∀ q n : Nat, Acts p use own g0 m0 l L
        (if base + off > q + n then do
            let w ← M.world
            let bytes ← M.ofRun (memRead (w.mem b) (base + off) len)
            let blk ← M.ofRun (memWrite (w.mem b) (q + n) bytes)
            M.setMem (w.mem.set b blk)
            (pure (CbRet.continue_, ⟨{ p.response resp with pBody := some q, bodyLen := szAdd cfg n len }, { ctx with cur := some (base + off + len) }⟩) :
              M PLog Γ (CbRet × RS S Γ))
          else pure (CbRet.continue_, ⟨{ p.response resp with pBody := some q, bodyLen := szAdd cfg n len }, { ctx with cur := some (base + off + len) }⟩))
        (if base + off > q + n then do
            let w ← M.world
            let bytes ← M.ofRun (memRead (w.mem b) (base + off) len)
            let blk ← M.ofRun (memWrite (w.mem b) (q + n) bytes)
            M.setMem (w.mem.set b blk)
            (pure (CbRet.continue_, ⟨{ resp with pBody := some q, bodyLen := szAdd cfg n len }, { ctx with cur := some (base + off + len) }⟩) :
              M PLog σ (CbRet × RS S σ))
          else pure (CbRet.continue_, ⟨{ resp with pBody := some q, bodyLen := szAdd cfg n len }, { ctx with cur := some (base + off + len) }⟩))
        (liftCR p) (BufC ob) := by
      intro q n
      split
      · refine .world fun w W hr => ?_
        simp only [M.bind_apply, M.ofRun_apply, hr.mem b hb]
        cases memRead (w.mem b) (base + off) len with
        | fault e => exact ⟨rfl, hr, fun _ h => by simp at h⟩
        | more => exact ⟨rfl, hr, fun _ h => by simp at h⟩
        | ok x =>
          dsimp only
          cases memWrite (w.mem b) (q + n) x with
          | fault e => exact ⟨rfl, hr, fun _ h => by simp at h⟩
          | more => exact ⟨rfl, hr, fun _ h => by simp at h⟩
          | ok blk =>
            simp only [M.setMem_apply, M.pure_apply]
            refine ⟨rfl, hr.setBlock ho blk, fun a h => ?_⟩
            simp at h
            rw [← h]
            exact hq
      · exact .pure rfl hq
    obtain ⟨c1, c2, c3, c4, c5, c6, pb, c8, c9, c10, c11, c12, c13, c14⟩ := resp
    cases pb with
    | none => exact key (base + off) 0
    | some q => exact key q c8

/-- The result of a parse, in the program. -/
def liftTree (p : Part Γ σ) (x : Errno × Nat × S × RS S σ) : Errno × Nat × S × RS S Γ := (x.1, x.2.1, x.2.2.1, liftRS p x.2.2.2)

theorem runTree_acts (cfg : Cfg) (hb : use b) (ho : own b) (base : Nat) (data : Bytes) (t : PTree S) : ∀ h : RS S σ, Buf ob h →
    Acts p use own g0 m0 l L (runTree b base data (recvCallback cfg b base) t (liftRS p h)) (runTree b base data (recvCallback cfg b base) t h)
      (liftTree p) (fun x => Buf ob x.2.2.2) := by
  induction t with
  | done er ep s => intro h hq; exact .same (.emit _) fun _ _ => .pure rfl hq
  | call e k ih =>
    intro h hq
    refine .same (.emit _) fun _ _ => .bind (recvCallback_acts cfg hb ho base e h hq) fun r hr => ?_
    refine .world fun w W hw => ?_
    simp only [hw.mem b hb]
    exact (Acts.same (.emit _) fun _ _ => ih r.1 r.2 hr) w W hw

/-- Status and state, in the program. -/
def liftSR (p : Part Γ σ) (x : Status × RS S σ) : Status × RS S Γ := (x.1, liftRS p x.2)

theorem parse_acts (P : Parser) (cfg : Cfg) (hb : use b) (ho : own b) (h : RS P.St σ) (hq : Buf ob h) (n : Nat) :
    Acts p use own g0 m0 l L (parseHttpResponse P cfg b (liftRS p h) n) (parseHttpResponse P cfg b h n) (liftSR p) (fun x => Buf ob x.2) := by
  have h1 : bindResponse (liftRS p h) = liftRS p (bindResponse h) := by
    unfold bindResponse
    show (if h.ctx.bound = false then _ else _) = _
    split <;> rfl
  have h2 : Buf ob (bindResponse h) := by unfold bindResponse; split <;> exact hq
  unfold parseHttpResponse
  rw [h1]
  generalize bindResponse h = h at h2
  obtain ⟨resp, ⟨a1, a2, a3, a4, cur, lf, a6, a7, a8⟩⟩ := h
  cases cur with
  | none => exact Acts.fault
  | some start =>
    refine .world fun w W hw => ?_
    simp only [hw.mem b hb]
    refine (Acts.same (.ofRun _) fun data _ => .same (.emit _) fun _ _ => .bind (runTree_acts cfg hb ho start data _ _ h2) fun x hx => ?_) w W hw
    exact Acts.pure (f := liftSR p) (Q := fun x => Buf ob x.2) rfl hx

/-- The result of the receive loop, in the program. -/
def liftLoop (p : Part Γ σ) (x : Status × Nat × RS S σ) : Status × Nat × RS S Γ := (x.1, x.2.1, liftRS p x.2.2)

/-- A receive function that uses and changes only a part of the environment. -/
def Spec.Part.recv (p : Part Γ σ) (recv : σ → Nat → Int × Bytes × σ) : Γ → Nat → Int × Bytes × Γ :=
  fun g n => ((recv (p.get g) n).1, (recv (p.get g) n).2.1, p.put g (recv (p.get g) n).2.2)
/-- A send function that uses and changes only a part of the environment. -/
def Spec.Part.send (p : Part Γ σ) (send : σ → Bytes → Int × σ) : Γ → Bytes → Int × Γ :=
  fun g d => ((send (p.get g) d).1, p.put g (send (p.get g) d).2)

theorem recvLoop_acts (P : Parser) (cfg : Cfg) (recv : σ → Nat → Int × Bytes × σ) (timeout : UInt32) (hb : use b) (ho : own b) (fuel : Nat) :
    ∀ (total : Nat) (last : UInt32) (h : RS P.St σ), Buf ob h →
    Acts p use own g0 m0 l L (recvLoop P cfg (p.recv recv) timeout b fuel total last (liftRS p h)) (recvLoop P cfg recv timeout b fuel total last h)
      (liftLoop p) (fun x => Buf ob x.2.2) := by
  induction fuel with
  | zero => intro _ _ _ _; exact .more
  | succ fuel ih =>
    intro total last h hq
    unfold recvLoop
    refine .world fun w W hw => ?_
    have hl : (liftRS p h).resp.bufferLen = h.resp.bufferLen := rfl
    simp only [hw.mem b hb, Part.recv, hw.get, hl]
    generalize hR : recv w.env (h.resp.bufferLen - total) = R
    obtain ⟨n, bs, e'⟩ := R
    simp only [M.bind_apply, M.ofRun_apply]
    cases memWrite (w.mem b) total bs with
    | fault e => exact ⟨rfl, hw, fun _ h => by simp at h⟩
    | more => exact ⟨rfl, hw, fun _ h => by simp at h⟩
    | ok blk =>
      simp only [M.setMem_apply, M.setEnv_apply, M.emit_apply]
      have hw' := ((hw.setEnv e').setBlock ho blk).emit (.recv total (h.resp.bufferLen - total) n (slice blk total n.toNat))
      refine Acts.elim ?_ hw'
      by_cases c1 : n < 0
      · rw [if_pos c1, if_pos c1]
        exact Acts.pure (f := liftLoop p) rfl hq
      · rw [if_neg c1, if_neg c1]
        by_cases c2 : n > 0
        · rw [if_pos c2, if_pos c2]
          refine .same (readClock_acts h.resp.getTime) fun now _ => .bind (parse_acts P cfg hb ho h hq _) fun x hx => ?_
          show Acts p use own g0 m0 l L (if x.1 = .success ∧ x.2.ctx.state ≠ .complete ∧ total + n.toNat < x.2.resp.bufferLen then
            recvLoop P cfg (p.recv recv) timeout b fuel (total + n.toNat) now (liftRS p x.2) else _) _ _ _
          by_cases c3 : x.1 = .success ∧ x.2.ctx.state ≠ .complete ∧ total + n.toNat < x.2.resp.bufferLen
          · rw [if_pos c3, if_pos c3]
            exact ih _ _ _ hx
          · rw [if_neg c3, if_neg c3]
            exact Acts.pure (f := liftLoop p) rfl hx
        · rw [if_neg c2, if_neg c2]
          refine .same (readClock_acts h.resp.getTime) fun now _ => ?_
          by_cases c3 : now - last ≥ timeout
          · rw [if_pos c3, if_pos c3]
            exact .bind (parse_acts P cfg hb ho h hq _) fun x hx => Acts.pure (f := liftLoop p) rfl hx
          · rw [if_neg c3, if_neg c3]
            show Acts p use own g0 m0 l L (if h.ctx.state ≠ .complete ∧ total < h.resp.bufferLen then
              recvLoop P cfg (p.recv recv) timeout b fuel total last (liftRS p h) else _) _ _ _
            by_cases c4 : h.ctx.state ≠ .complete ∧ total < h.resp.bufferLen
            · rw [if_pos c4, if_pos c4]
              exact ih _ _ _ hq
            · rw [if_neg c4, if_neg c4]
              exact Acts.pure (f := liftLoop p) rfl hq

/-- Status and response object, in the program. -/
def liftResp (p : Part Γ σ) (x : Status × Resp σ) : Status × Resp Γ := (x.1, p.response x.2)

theorem finish_acts (cfg : Cfg) (st : Status) (total : Nat) (h : RS S σ) (hq : Buf ob h) :
    Acts p use own g0 m0 l L (finishReceive cfg st total (liftRS p h)) (finishReceive cfg st total h) (liftResp p) (fun x => x.2.pBuffer = ob) := by
  unfold finishReceive
  refine .bind (f := liftSR p) (Q := fun x => Buf ob x.2) ?_ fun x hx => ?_
  · show Acts p use own g0 m0 l L (if st = .parserPaused ∧ h.resp.respOptionFlags &&& DO_NOT_PARSE_BODY_FLAG ≠ 0 then _ else _) _ _ _
    obtain ⟨resp, ⟨a1, a2, a3, a4, cur, lf, a6, a7, a8⟩⟩ := h
    split
    · cases cur with
      | none => exact .fault
      | some cur => exact Acts.pure (f := liftSR p) rfl hq
    · exact Acts.pure (f := liftSR p) rfl hq
  · obtain ⟨st, h⟩ := x
    show Acts p use own g0 m0 l L (if st = .success then _ else _) (if st = .success then _ else _) _ _
    by_cases c : st = .success
    · rw [if_pos c, if_pos c]
      refine .same (Q := fun _ => True) ?_ fun a _ => Acts.pure (f := liftResp p) rfl hx
      exact .same (.assert _ _) fun _ _ => Acts.pure rfl trivial
    · rw [if_neg c, if_neg c]
      exact Acts.pure (f := liftResp p) rfl hx

theorem isZero_clock (c : TimeFn σ) : (p.clock c).isZero = c.isZero := by cases c <;> rfl

theorem retryTimeout_clock (c : TimeFn σ) (t : UInt32) : retryTimeout (p.clock c) t = retryTimeout c t := by
  unfold retryTimeout; rw [isZero_clock]

theorem receive_acts (P : Parser) (cfg : Cfg) (fuel : Nat) (T : Option (Transport σ)) (resp : Option (Resp σ)) (rh : Option ReqHeaders)
    (hin : ∀ r b, resp = some r → r.pBuffer = some b → use b ∧ own b) (hrb : ∀ r b, rh = some r → r.pBuffer = some b → use b) :
    Acts p use own g0 m0 l L (HTTPClient_ReceiveAndParseHttpResponse P cfg fuel (T.map p.transport) (resp.map p.response) rh)
      (HTTPClient_ReceiveAndParseHttpResponse P cfg fuel T resp rh) (liftResp p) (fun x => ∃ r, resp = some r ∧ x.2.pBuffer = r.pBuffer) := by
  unfold HTTPClient_ReceiveAndParseHttpResponse
  cases T with
  | none => exact .fault
  | some T =>
    obtain ⟨send, recv⟩ := T
    cases recv with
    | none => exact .fault
    | some recv =>
      cases resp with
      | none => exact .fault
      | some resp =>
        cases rh with
        | none => exact .fault
        | some rh =>
          show Acts p use own g0 m0 l L (initializeParsingContext P (some rh) >>= _) (initializeParsingContext P (some rh) >>= _) _ _
          refine .same (Q := fun _ => True) ?_ fun ctx _ => ?_
          · unfold initializeParsingContext
            refine .same (.assert _ _) fun _ _ => ?_
            cases hp : rh.pBuffer with
            | none => exact .fault
            | some rb =>
              refine .world fun w W hw => ?_
              simp only [hw.mem rb (hrb rh rb rfl hp)]
              refine Acts.elim ?_ hw
              exact .same (.ofRun _) fun _ _ => .pure rfl trivial
          · refine .same (readClock_acts resp.getTime) fun last _ => ?_
            cases hp : resp.pBuffer with
            | none =>
              simp only [Part.response, hp]
              exact .fault
            | some b =>
              obtain ⟨hu, ho⟩ := hin resp b rfl hp
              have h1 : retryTimeout (p.response resp).getTime cfg.recvTimeoutMs = retryTimeout resp.getTime cfg.recvTimeoutMs := retryTimeout_clock _ _
              have h2 : (p.response resp).pBuffer = some b := hp
              simp only [h1, h2]
              refine .bind (recvLoop_acts P cfg recv _ hu ho fuel 0 last ⟨resp, ctx⟩ hp) fun x hx => ?_
              exact (finish_acts cfg _ _ _ hx).mono fun a ha => ⟨resp, rfl, ha.trans hp.symm⟩

theorem sendLoop_acts (send : σ → Bytes → Int × σ) (clock : TimeFn σ) (t : UInt32) (hb : use b) (fuel : Nat) :
    ∀ (off remaining : Nat) (last : UInt32),
    Acts p use own g0 m0 l L (sendLoop (p.send send) (p.clock clock) t b fuel off remaining last) (sendLoop send clock t b fuel off remaining last)
      id (fun _ => True) := by
  induction fuel with
  | zero =>
    intro off remaining last
    unfold sendLoop
    by_cases c : remaining = 0
    · rw [if_pos c, if_pos c]; exact .pure rfl trivial
    · rw [if_neg c, if_neg c]; exact .more
  | succ fuel ih =>
    intro off remaining last
    unfold sendLoop
    by_cases c : remaining = 0
    · rw [if_pos c, if_pos c]; exact .pure rfl trivial
    · rw [if_neg c, if_neg c]
      refine .world fun w W hw => ?_
      simp only [hw.mem b hb, Part.send, hw.get]
      simp only [M.bind_apply, M.ofRun_apply]
      cases memRead (w.mem b) off remaining with
      | fault e => exact ⟨rfl, hw, fun _ h => by simp at h⟩
      | more => exact ⟨rfl, hw, fun _ h => by simp at h⟩
      | ok data =>
        dsimp only
        generalize send w.env data = R
        obtain ⟨n, e'⟩ := R
        simp only [M.setEnv_apply, M.emit_apply]
        have hw' := (hw.setEnv e').emit (.send data n)
        refine Acts.elim ?_ hw'
        by_cases c1 : n < 0
        · rw [if_pos c1, if_pos c1]; exact .pure rfl trivial
        · rw [if_neg c1, if_neg c1]
          by_cases c2 : n > 0
          · rw [if_pos c2, if_pos c2]
            exact .same (.assert _ _) fun _ _ => .same (readClock_acts clock) fun now _ => ih _ _ _
          · rw [if_neg c2, if_neg c2]
            refine .same (readClock_acts clock) fun now _ => ?_
            by_cases c3 : now - last ≥ t
            · rw [if_pos c3, if_pos c3]; exact .pure rfl trivial
            · rw [if_neg c3, if_neg c3]; exact ih _ _ _

theorem sendData_acts (cfg : Cfg) (fuel : Nat) (T : Option (Transport σ)) (clock : TimeFn σ) (data : Option Nat) (len : Nat)
    (hin : ∀ b, data = some b → use b) :
    Acts p use own g0 m0 l L (HTTPClient_SendHttpData cfg fuel (T.map p.transport) (p.clock clock) data len)
      (HTTPClient_SendHttpData cfg fuel T clock data len) id (fun _ => True) := by
  unfold HTTPClient_SendHttpData
  cases T with
  | none => exact .fault
  | some T =>
    obtain ⟨send, recv⟩ := T
    cases send with
    | none => exact .fault
    | some send =>
      cases data with
      | none => exact .fault
      | some b =>
        refine .same (readClock_acts clock) fun last _ => ?_
        rw [retryTimeout_clock]
        exact sendLoop_acts send clock _ (hin b rfl) fuel _ _ _

/-! ## Building requests -/

/-- The memory `m` of a client alone and the memory `M` of the program, which was `m0` at first. -/
structure MemRel (use own : Nat → Prop) (m0 m M : Mem) : Prop where
  mem : ∀ i, use i → M i = m i
  frame : ∀ i, ¬ own i → M i = m0 i

theorem MemRel.set {m M : Mem} (h : MemRel use own m0 m M) (ho : own b) (blk : Bytes) : MemRel use own m0 (m.set b blk) (M.set b blk) := by
  refine ⟨fun i hi => ?_, fun i hi => ?_⟩
  · by_cases e : i = b
    · subst e; simp
    · simp only [Mem.set_other _ _ e]; exact h.mem i hi
  · have e : i ≠ b := fun e => hi (e ▸ ho)
    simp only [Mem.set_other _ _ e]; exact h.frame i hi

/-- Both runs return, with related results, or both end in the same fault, or both have not ended. -/
def Both {α β : Type} (R : α → β → Prop) : Run β → Run α → Prop
  | .ok y, .ok x => R x y
  | .fault e, .fault e' => e = e'
  | .more, .more => True
  | _, _ => False

namespace Both
variable {α β α' β' : Type}
theorem same (x : Run α) : Both (fun a b => b = a) x x := by cases x <;> simp [Both]
theorem bind {R : α → β → Prop} {R' : α' → β' → Prop} {x : Run β} {y : Run α} {k : β → Run β'} {k' : α → Run α'}
    (h : Both R x y) (hk : ∀ a b, R a b → Both R' (k b) (k' a)) : Both R' (x >>= k) (y >>= k') := by
  cases x <;> cases y <;> simp only [Both] at h <;> first | exact hk _ _ h | exact h | trivial
/-- The same first step in both. -/
theorem step {R' : α' → β' → Prop} {x : Run α} {k : α → Run β'} {k' : α → Run α'}
    (hk : ∀ a, Both R' (k a) (k' a)) : Both R' (x >>= k) (x >>= k') := bind (same x) fun a b e => by rw [e]; exact hk a
end Both

/-- Same status and request object, related memories; the buffer of the request object is `ob`. -/
def OutRel (use own : Nat → Prop) (m0 : Mem) (ob : Option Nat) (r R : ReqOut) : Prop :=
  R.status = r.status ∧ R.hdrs = r.hdrs ∧ MemRel use own m0 r.mem R.mem ∧ r.hdrs.pBuffer = ob

theorem addHeader_both (cfg : Cfg) {m M : Mem} (hm : MemRel use own m0 m M) (h : ReqHeaders) (field value : Option Bytes)
    (hu : ∀ b, h.pBuffer = some b → use b) (ho : ∀ b, h.pBuffer = some b → own b) :
    Both (OutRel use own m0 h.pBuffer) (addHeader cfg M h field value) (addHeader cfg m h field value) := by
  unfold addHeader
  obtain ⟨pb, bl, hl⟩ := h
  cases pb with
  | none => exact rfl
  | some b =>
    cases field with
    | none => exact rfl
    | some field =>
      cases value with
      | none => exact rfl
      | some value =>
        dsimp only
        rw [hm.mem b (hu b rfl)]
        refine .step fun _ => .step fun _ => .step fun bt => ?_
        split
        · refine .step fun x => ?_
          obtain ⟨o, blk⟩ := x
          dsimp only
          split
          · exact ⟨rfl, rfl, hm.set (ho b rfl) _, rfl⟩
          · refine .step fun x => .step fun x => ?_
            obtain ⟨o, blk⟩ := x
            dsimp only
            split
            · exact ⟨rfl, rfl, hm.set (ho b rfl) _, rfl⟩
            · exact .step fun x => ⟨rfl, rfl, hm.set (ho b rfl) _, rfl⟩
        · exact ⟨rfl, rfl, hm, rfl⟩

theorem writeRequestLine_both (cfg : Cfg) {m M : Mem} (hm : MemRel use own m0 m M) (h : ReqHeaders) (method path : Option Bytes)
    (hu : ∀ b, h.pBuffer = some b → use b) (ho : ∀ b, h.pBuffer = some b → own b) :
    Both (OutRel use own m0 h.pBuffer) (writeRequestLine cfg M h method path) (writeRequestLine cfg m h method path) := by
  unfold writeRequestLine
  obtain ⟨pb, bl, hl⟩ := h
  cases pb with
  | none => exact rfl
  | some b =>
    cases method with
    | none => exact rfl
    | some method =>
      dsimp only
      rw [hm.mem b (hu b rfl)]
      refine .step fun _ => ?_
      split
      · exact ⟨rfl, rfl, hm, rfl⟩
      · exact .step fun _ => .step fun _ => .step fun _ => .step fun _ => .step fun _ => .step fun _ => ⟨rfl, rfl, hm.set (ho b rfl) _, rfl⟩

/-- Same status and request object, related memories; the buffer of the request object is `ob`. -/
def ApiRel (use own : Nat → Prop) (m0 : Mem) (o : Option ReqHeaders) (r R : Status × Option ReqHeaders × Mem) : Prop :=
  R.1 = r.1 ∧ R.2.1 = r.2.1 ∧ MemRel use own m0 r.2.2 R.2.2 ∧ r.2.1.bind ReqHeaders.pBuffer = o.bind ReqHeaders.pBuffer

theorem OutRel.api {h : ReqHeaders} {r R : ReqOut} (x : OutRel use own m0 h.pBuffer r R) :
    ApiRel use own m0 (some h) (r.status, some r.hdrs, r.mem) (R.status, some R.hdrs, R.mem) :=
  ⟨x.1, congrArg some x.2.1, x.2.2.1, x.2.2.2⟩

/-- A further header, if `c`. -/
theorem further_both (cfg : Cfg) {r R : ReqOut} {ob : Option Nat} (c : Status → Prop) [DecidablePred c] (field value : Option Bytes)
    (hu : ∀ b, ob = some b → use b) (ho : ∀ b, ob = some b → own b) (hr : OutRel use own m0 ob r R) :
    Both (OutRel use own m0 ob) (if c R.status then addHeader cfg R.mem R.hdrs field value else .ok R)
      (if c r.status then addHeader cfg r.mem r.hdrs field value else .ok r) := by
  obtain ⟨h1, h2, h3, h4⟩ := hr
  rw [h1, h2]
  split
  · rw [← h4]
    exact addHeader_both cfg h3 _ _ _ (by rw [h4]; exact hu) (by rw [h4]; exact ho)
  · exact ⟨h1, h2, h3, h4⟩

theorem initialize_both (cfg : Cfg) {m M : Mem} (hm : MemRel use own m0 m M) (o : Option ReqHeaders) (info : Option ReqInfo)
    (hu : ∀ h b, o = some h → h.pBuffer = some b → use b) (ho : ∀ h b, o = some h → h.pBuffer = some b → own b) :
    Both (ApiRel use own m0 o) (HTTPClient_InitializeRequestHeaders cfg M o info) (HTTPClient_InitializeRequestHeaders cfg m o info) := by
  unfold HTTPClient_InitializeRequestHeaders
  cases o with
  | none => exact ⟨rfl, rfl, hm, rfl⟩
  | some h =>
    obtain ⟨pb, bl, hl⟩ := h
    cases pb with
    | none => exact ⟨rfl, rfl, hm, rfl⟩
    | some b =>
      cases info with
      | none => exact ⟨rfl, rfl, hm, rfl⟩
      | some info =>
        obtain ⟨method, path, host, flags⟩ := info
        cases method with
        | none => exact ⟨rfl, rfl, hm, rfl⟩
        | some method =>
          cases host with
          | none => exact ⟨rfl, rfl, hm, rfl⟩
          | some host =>
            dsimp only
            split
            · exact ⟨rfl, rfl, hm, rfl⟩
            split
            · exact ⟨rfl, rfl, hm, rfl⟩
            have hu' : ∀ c, some b = some c → use c := fun c e => hu _ c rfl e
            have ho' : ∀ c, some b = some c → own c := fun c e => ho _ c rfl e
            refine .bind (writeRequestLine_both cfg hm _ _ _ hu' ho') fun r R h1 => ?_
            refine .bind (further_both cfg (fun st => st = .success ∧ REQUEST_NO_USER_AGENT_FLAG &&& flags = 0) _ _ hu' ho' h1) fun r R h2 => ?_
            refine .bind (further_both cfg (fun st => st = .success) _ _ hu' ho' h2) fun r R h3 => ?_
            refine .bind (further_both cfg (fun st => st = .success ∧ REQUEST_KEEP_ALIVE_FLAG &&& flags ≠ 0) _ _ hu' ho' h3) fun r R h4 => ?_
            exact OutRel.api (h := ⟨some b, bl, hl⟩) h4

theorem addHeaderApi_both (cfg : Cfg) {m M : Mem} (hm : MemRel use own m0 m M) (o : Option ReqHeaders) (field value : Option Bytes)
    (hu : ∀ h b, o = some h → h.pBuffer = some b → use b) (ho : ∀ h b, o = some h → h.pBuffer = some b → own b) :
    Both (ApiRel use own m0 o) (HTTPClient_AddHeader cfg M o field value) (HTTPClient_AddHeader cfg m o field value) := by
  unfold HTTPClient_AddHeader
  cases o with
  | none => exact ⟨rfl, rfl, hm, rfl⟩
  | some h =>
    obtain ⟨pb, bl, hl⟩ := h
    cases pb with
    | none => exact ⟨rfl, rfl, hm, rfl⟩
    | some b =>
      cases field with
      | none => exact ⟨rfl, rfl, hm, rfl⟩
      | some field =>
        cases value with
        | none => exact ⟨rfl, rfl, hm, rfl⟩
        | some value =>
          dsimp only
          split
          · exact ⟨rfl, rfl, hm, rfl⟩
          split
          · exact ⟨rfl, rfl, hm, rfl⟩
          split
          · exact ⟨rfl, rfl, hm, rfl⟩
          exact .bind (addHeader_both cfg hm _ _ _ (fun c e => hu _ c rfl e) fun c e => ho _ c rfl e) fun r R h1 => OutRel.api (h := ⟨some b, bl, hl⟩) h1

theorem addRange_both (cfg : Cfg) {m M : Mem} (hm : MemRel use own m0 m M) (o : Option ReqHeaders) (a e : Int)
    (hu : ∀ h b, o = some h → h.pBuffer = some b → use b) (ho : ∀ h b, o = some h → h.pBuffer = some b → own b) :
    Both (ApiRel use own m0 o) (HTTPClient_AddRangeHeader cfg M o a e) (HTTPClient_AddRangeHeader cfg m o a e) := by
  unfold HTTPClient_AddRangeHeader
  cases o with
  | none => exact ⟨rfl, rfl, hm, rfl⟩
  | some h =>
    obtain ⟨pb, bl, hl⟩ := h
    cases pb with
    | none => exact ⟨rfl, rfl, hm, rfl⟩
    | some b =>
      dsimp only
      split
      · exact ⟨rfl, rfl, hm, rfl⟩
      split
      · exact ⟨rfl, rfl, hm, rfl⟩
      split
      · exact ⟨rfl, rfl, hm, rfl⟩
      split
      · exact ⟨rfl, rfl, hm, rfl⟩
      split
      · exact ⟨rfl, rfl, hm, rfl⟩
      refine .bind (R := OutRel use own m0 (some b)) ?_ fun r R h1 => OutRel.api (h := ⟨some b, bl, hl⟩) h1
      exact .step fun v => addHeader_both cfg hm _ _ _ (fun c e => hu _ c rfl e) fun c e => ho _ c rfl e

theorem contentLength_both (cfg : Cfg) {m M : Mem} (hm : MemRel use own m0 m M) (h : ReqHeaders) (n : Nat)
    (hu : ∀ b, h.pBuffer = some b → use b) (ho : ∀ b, h.pBuffer = some b → own b) :
    Both (OutRel use own m0 h.pBuffer) (addContentLengthHeader cfg M h n) (addContentLengthHeader cfg m h n) := by
  unfold addContentLengthHeader
  exact .step fun _ => .step fun _ => .step fun v => addHeader_both cfg hm _ _ _ hu ho

theorem Rel.memRel {w : World PLog σ} {W : World PLog Γ} (h : Rel p use own g0 m0 l L w W) : MemRel use own m0 w.mem W.mem := ⟨h.mem, h.frame⟩
theorem Rel.setMem {w : World PLog σ} {W : World PLog Γ} (h : Rel p use own g0 m0 l L w W) {m M : Mem} (hm : MemRel use own m0 m M) :
    Rel p use own g0 m0 l L ⟨w.env, m, w.log⟩ ⟨W.env, M, W.log⟩ := ⟨h.env, hm.mem, hm.frame, h.log⟩

/-- A computation on the memory, after which the memory is set. -/
theorem Acts.memory {α β α' β' : Type} {F : Mem → Run β} {f : Mem → Run α} {R : α → β → Prop} {M' : β → Mem} {m' : α → Mem}
    {k : β → M PLog Γ β'} {k' : α → M PLog σ α'} {g : α' → β'} {Q : α' → Prop}
    (hF : ∀ m M, MemRel use own m0 m M → Both R (F M) (f m)) (hM : ∀ a b, R a b → MemRel use own m0 (m' a) (M' b))
    (hk : ∀ a b, R a b → Acts p use own g0 m0 l L (k b) (k' a) g Q) :
    Acts p use own g0 m0 l L (M.world >>= fun W => M.ofRun (F W.mem) >>= fun r => M.setMem (M' r) >>= fun _ => k r)
      (M.world >>= fun w => M.ofRun (f w.mem) >>= fun r => M.setMem (m' r) >>= fun _ => k' r) g Q := by
  refine .world fun w W hr => ?_
  have h := hF w.mem W.mem hr.memRel
  simp only [M.bind_apply, M.ofRun_apply]
  cases hx : F W.mem <;> cases hy : f w.mem <;> rw [hx, hy] at h <;> simp only [Both] at h
  · simp only [M.setMem_apply]
    exact (hk _ _ h).elim (hr.setMem (hM _ _ h))
  · exact ⟨by rw [h]; rfl, hr, fun _ h => by simp at h⟩
  · exact ⟨rfl, hr, fun _ h => by simp at h⟩

/-- Reply and objects, in the program. -/
def liftReply (p : Part Γ σ) (x : Reply × Objs σ) : Reply × Objs Γ := (x.1, p.objs x.2)

theorem building_acts {F : Mem → Run (Status × Option ReqHeaders × Mem)} (o : Objs σ) (ho : ObjsIn own o)
    (hF : ∀ m M, MemRel use own m0 m M → Both (ApiRel use own m0 o.req) (F M) (F m)) :
    Acts p use own g0 m0 l L (building F (p.objs o)) (building F o) (liftReply p) (fun x => ObjsIn own x.2) := by
  unfold building
  refine Acts.memory hF (fun a b h => h.2.2.1) fun a b h => Acts.pure ?_ ?_
  · show (_, _) = (_, _)
    rw [h.1, h.2.1]
    rfl
  · refine ⟨fun h' b' e1 e2 => ?_, ho.resp⟩
    have h4 := h.2.2.2
    dsimp only at e1
    rw [e1] at h4
    cases hq : o.req with
    | none => rw [hq] at h4; simp [e2] at h4
    | some q =>
      rw [hq] at h4
      exact ho.req q b' hq (by simpa [e2] using h4.symm)

theorem sendHeaders_acts (cfg : Cfg) (fuel : Nat) (T : Option (Transport σ)) (clock : TimeFn σ) (rh : Option ReqHeaders) (n : Nat) (flags : UInt32)
    (hu : ∀ h b, rh = some h → h.pBuffer = some b → use b) (ho : ∀ h b, rh = some h → h.pBuffer = some b → own b) :
    Acts p use own g0 m0 l L (HTTPClient_SendHttpHeaders cfg fuel (T.map p.transport) (p.clock clock) rh n flags)
      (HTTPClient_SendHttpHeaders cfg fuel T clock rh n flags) id (fun x => x.2.bind ReqHeaders.pBuffer = rh.bind ReqHeaders.pBuffer) := by
  unfold HTTPClient_SendHttpHeaders
  cases T with
  | none => exact .fault
  | some T =>
    obtain ⟨send, recv⟩ := T
    cases send with
    | none => exact .fault
    | some send =>
      cases rh with
      | none => exact .fault
      | some h =>
        have hu' := fun b => hu h b rfl
        have ho' := fun b => ho h b rfl
        have hk : ∀ r R : ReqOut, OutRel use own m0 h.pBuffer r R → Acts p use own g0 m0 l L
            (if R.status = .success then do
              let st ← HTTPClient_SendHttpData cfg fuel ((some ⟨some send, recv⟩ : Option (Transport σ)).map p.transport) (p.clock clock) R.hdrs.pBuffer R.hdrs.headersLen
              (Pure.pure (st, some R.hdrs) : M PLog Γ (Status × Option ReqHeaders))
            else Pure.pure (R.status, some R.hdrs))
            (if r.status = .success then do
              let st ← HTTPClient_SendHttpData cfg fuel (some ⟨some send, recv⟩) clock r.hdrs.pBuffer r.hdrs.headersLen
              (Pure.pure (st, some r.hdrs) : M PLog σ (Status × Option ReqHeaders))
            else Pure.pure (r.status, some r.hdrs)) id
            (fun x => x.2.bind ReqHeaders.pBuffer = h.pBuffer) := by
          intro r R ⟨h1, h2, h3, h4⟩
          rw [h1, h2]
          split
          · exact .same (sendData_acts cfg fuel (some ⟨some send, recv⟩) clock _ _ fun b e => hu' b (h4 ▸ e)) fun st _ => .pure rfl h4
          · exact .pure rfl h4
        by_cases c : flags &&& SEND_DISABLE_CONTENT_LENGTH_FLAG = 0 ∧ n > 0
        · simp only [Option.map_some, Part.transport, if_pos c]
          exact Acts.memory (R := OutRel use own m0 h.pBuffer) (F := fun m => addContentLengthHeader cfg m h n)
            (fun m M hm => contentLength_both cfg hm h n hu' ho') (fun a b h => h.2.2.1) hk
        · simp only [Option.map_some, Part.transport, if_neg c]
          refine Acts.memory (R := OutRel use own m0 h.pBuffer) (F := fun m => .ok ⟨.success, h, m⟩) (f := fun m => .ok ⟨.success, h, m⟩)
            (fun m M hm => ⟨rfl, rfl, hm, rfl⟩) (fun a b h => h.2.2.1) hk

theorem sendBody_acts (cfg : Cfg) (fuel : Nat) (T : Option (Transport σ)) (clock : TimeFn σ) (data : Option Nat) (len : Nat)
    (hin : ∀ b, data = some b → use b) :
    Acts p use own g0 m0 l L (sendHttpBody cfg fuel (T.map p.transport) (p.clock clock) data len)
      (sendHttpBody cfg fuel T clock data len) id (fun _ => True) := by
  unfold sendHttpBody
  cases T with
  | none => exact .fault
  | some T =>
    obtain ⟨send, recv⟩ := T
    cases send with
    | none => exact .fault
    | some send =>
      cases data with
      | none => exact .fault
      | some b => exact sendData_acts cfg fuel (some ⟨some send, recv⟩) clock _ _ hin

theorem sendRequest_acts (cfg : Cfg) (fuel : Nat) (T : Option (Transport σ)) (clock : TimeFn σ) (rh : Option ReqHeaders) (data : Option Nat) (n : Nat)
    (flags : UInt32) (hd : ∀ b, data = some b → use b)
    (hu : ∀ h b, rh = some h → h.pBuffer = some b → use b) (ho : ∀ h b, rh = some h → h.pBuffer = some b → own b) :
    Acts p use own g0 m0 l L (sendHttpRequest cfg fuel (T.map p.transport) (p.clock clock) rh data n flags)
      (sendHttpRequest cfg fuel T clock rh data n flags) id (fun x => x.2.bind ReqHeaders.pBuffer = rh.bind ReqHeaders.pBuffer) := by
  unfold sendHttpRequest
  have h1 : (T.map p.transport).isSome = T.isSome := by cases T <;> rfl
  rw [h1]
  refine .same (.assert _ _) fun _ _ => .same (.assert _ _) fun _ _ => .same (.assert _ _) fun _ _ => .same (Q := fun _ => True) ?_ fun _ _ => ?_
  · cases clock <;> exact .assert _ _
  refine .same (sendHeaders_acts cfg fuel T clock rh n flags hu ho) fun r hr => ?_
  by_cases c : r.1 = .success
  · rw [if_pos c, if_pos c]
    cases data with
    | none => exact .pure rfl hr
    | some b => exact .same (sendBody_acts cfg fuel T clock (some b) n hd) fun st _ => .pure rfl hr
  · rw [if_neg c, if_neg c]
    exact .pure rfl hr

/-- The result of HTTPClient_Send, in the program. -/
def liftSend (p : Part Γ σ) (x : Status × Option ReqHeaders × Option (Resp σ)) : Status × Option ReqHeaders × Option (Resp Γ) :=
  (x.1, x.2.1, x.2.2.map p.response)

theorem send_acts (P : Parser) (cfg : Cfg) (fuel : Nat) (T : Option (Transport σ)) (rh : Option ReqHeaders) (data : Option Nat) (n : Nat)
    (resp : Option (Resp σ)) (flags : UInt32) (hd : ∀ b, data = some b → use b)
    (hu : ∀ h b, rh = some h → h.pBuffer = some b → use b) (ho : ∀ h b, rh = some h → h.pBuffer = some b → own b)
    (hin : ∀ r b, resp = some r → r.pBuffer = some b → use b ∧ own b) :
    Acts p use own g0 m0 l L (HTTPClient_Send P cfg fuel (T.map p.transport) rh data n (resp.map p.response) flags)
      (HTTPClient_Send P cfg fuel T rh data n resp flags) (liftSend p)
      (fun x => x.2.1.bind ReqHeaders.pBuffer = rh.bind ReqHeaders.pBuffer ∧ x.2.2.bind Resp.pBuffer = resp.bind Resp.pBuffer) := by
  have out : ∀ st, Acts p use own g0 m0 l L (Pure.pure (st, rh, resp.map p.response)) (Pure.pure (st, rh, resp)) (liftSend p)
      (fun x => x.2.1.bind ReqHeaders.pBuffer = rh.bind ReqHeaders.pBuffer ∧ x.2.2.bind Resp.pBuffer = resp.bind Resp.pBuffer) :=
    fun st => .pure rfl ⟨rfl, rfl⟩
  unfold HTTPClient_Send
  cases T with
  | none => exact out _
  | some T =>
    have e1 : (p.transport T).send.isNone = T.send.isNone := by cases h : T.send <;> simp [Part.transport, h]
    have e2 : (p.transport T).recv.isNone = T.recv.isNone := by cases h : T.recv <;> simp [Part.transport, h]
    simp only [Option.map_some, e1, e2]
    by_cases c1 : T.send.isNone
    · rw [if_pos c1, if_pos c1]; exact out _
    rw [if_neg c1, if_neg c1]
    by_cases c2 : T.recv.isNone
    · rw [if_pos c2, if_pos c2]; exact out _
    rw [if_neg c2, if_neg c2]
    cases rh with
    | none => exact out _
    | some h =>
      dsimp only
      by_cases c3 : h.pBuffer.isNone
      · rw [if_pos c3, if_pos c3]; exact out _
      rw [if_neg c3, if_neg c3]
      by_cases c4 : h.headersLen < MINIMUM_REQUEST_LINE_LENGTH
      · rw [if_pos c4, if_pos c4]; exact out _
      rw [if_neg c4, if_neg c4]
      by_cases c5 : h.headersLen > h.bufferLen
      · rw [if_pos c5, if_pos c5]; exact out _
      rw [if_neg c5, if_neg c5]
      cases resp with
      | none => exact out _
      | some resp =>
        have e3 : (p.response resp).pBuffer = resp.pBuffer := rfl
        have e4 : (p.response resp).bufferLen = resp.bufferLen := rfl
        simp only [Option.map_some, e3, e4]
        by_cases c6 : resp.pBuffer.isNone
        · rw [if_pos c6, if_pos c6]; exact out _
        rw [if_neg c6, if_neg c6]
        by_cases c7 : resp.bufferLen = 0
        · rw [if_pos c7, if_pos c7]; exact out _
        rw [if_neg c7, if_neg c7]
        by_cases c8 : data.isNone ∧ n > 0
        · rw [if_pos c8, if_pos c8]; exact out _
        rw [if_neg c8, if_neg c8]
        by_cases c9 : n > 2147483647
        · rw [if_pos c9, if_pos c9]; exact out _
        rw [if_neg c9, if_neg c9]
        clear out
        have fin : ∀ r : Resp σ, r.pBuffer = resp.pBuffer → Acts p use own g0 m0 l L
            (do
              let (st, orh) ← sendHttpRequest cfg fuel (some (p.transport T)) (p.response r).getTime (some h) data n flags
              if st = .success then do
                let (st, resp) ← HTTPClient_ReceiveAndParseHttpResponse P cfg fuel (some (p.transport T)) (some (p.response r)) orh
                pure (st, orh, some resp)
              else pure (st, orh, some (p.response r)))
            (do
              let (st, orh) ← sendHttpRequest cfg fuel (some T) r.getTime (some h) data n flags
              if st = .success then do
                let (st, resp) ← HTTPClient_ReceiveAndParseHttpResponse P cfg fuel (some T) (some r) orh
                pure (st, orh, some resp)
              else pure (st, orh, some r))
            (liftSend p) (fun x => x.2.1.bind ReqHeaders.pBuffer = h.pBuffer ∧ x.2.2.bind Resp.pBuffer = resp.pBuffer) := by
          intro rr hrr
          refine .same (sendRequest_acts cfg fuel (some T) rr.getTime (some h) data n flags hd hu ho) fun x hx => ?_
          obtain ⟨st, orh⟩ := x
          dsimp only
          by_cases c : st = .success
          · rw [if_pos c, if_pos c]
            refine .bind (receive_acts P cfg fuel (some T) (some rr) orh ?_ ?_) fun y hy => ?_
            · intro r b hr hb
              cases hr
              exact hin resp b rfl (hrr ▸ hb)
            · intro r b hr hb
              subst hr
              exact hu h b rfl (by simpa [hb] using hx.symm)
            · obtain ⟨r', hr', hy⟩ := hy
              cases hr'
              exact .pure rfl ⟨hx, hy.trans hrr⟩
          · rw [if_neg c, if_neg c]
            exact .pure rfl ⟨hx, hrr⟩
        obtain ⟨d1, d2, d3, clk, d5, d6, d7, d8, d9, d10, d11, d12, d13, d14⟩ := resp
        cases clk with
        | null => exact fin ⟨d1, d2, d3, .zero, d5, d6, d7, d8, d9, d10, d11, d12, d13, d14⟩ rfl
        | zero => exact fin ⟨d1, d2, d3, .zero, d5, d6, d7, d8, d9, d10, d11, d12, d13, d14⟩ rfl
        | user t => exact fin ⟨d1, d2, d3, .user t, d5, d6, d7, d8, d9, d10, d11, d12, d13, d14⟩ rfl

theorem findField_acts (hb : use b) (base : Nat) (field : Bytes) (e : PEv) (h : FindCtx) :
    Acts p use own g0 m0 l L (findCallback b base field e h) (findCallback b base field e h) id (fun _ => True) := by
  cases e with
  | headerField off len =>
    refine .same (.assert _ _) fun _ _ => .same (.assert _ _) fun _ _ => .same (.assert _ _) fun _ _ => .same (.assert _ _) fun _ _ => ?_
    by_cases c : len = field.length
    · rw [if_pos c, if_pos c]
      refine .world fun w W hw => ?_
      simp only [hw.mem b hb]
      refine Acts.elim ?_ hw
      exact .same (.ofRun _) fun _ _ => .same (.ofRun _) fun _ _ => .pure rfl trivial
    · rw [if_neg c, if_neg c]
      exact .pure rfl trivial
  | headerValue off len =>
    refine .same (.assert _ _) fun _ _ => .same (.assert _ _) fun _ _ => ?_
    by_cases c : h.fieldFound
    · rw [if_pos c, if_pos c]; exact .pure rfl trivial
    · rw [if_neg c, if_neg c]; exact .pure rfl trivial
  | _ => exact .pure rfl trivial

theorem findTree_acts {S : Type} (hb : use b) (base : Nat) (data field : Bytes) (t : PTree S) : ∀ h : FindCtx,
    Acts p use own g0 m0 l L (runTree b base data (findCallback b base field) t h) (runTree b base data (findCallback b base field) t h)
      id (fun _ => True) := by
  induction t with
  | done er ep s => intro h; exact .same (.emit _) fun _ _ => .pure rfl trivial
  | call e k ih =>
    intro h
    refine .same (.emit _) fun _ _ => .same (findField_acts hb base field e h) fun r _ => ?_
    refine .world fun w W hw => ?_
    simp only [hw.mem b hb]
    refine Acts.elim ?_ hw
    exact .same (.emit _) fun _ _ => ih r.1 r.2

theorem readHeader_acts (P : Parser) (resp : Option (Resp σ)) (field : Option Bytes) (loc : Option (Option Nat)) (len : Option Nat)
    (hu : ∀ r b, resp = some r → r.pBuffer = some b → use b) :
    Acts p use own g0 m0 l L (HTTPClient_ReadHeader P (resp.map p.response) field loc len) (HTTPClient_ReadHeader P resp field loc len)
      id (fun _ => True) := by
  unfold HTTPClient_ReadHeader
  cases resp with
  | none => exact .pure rfl trivial
  | some resp =>
    have e3 : (p.response resp).pBuffer = resp.pBuffer := rfl
    have e4 : (p.response resp).bufferLen = resp.bufferLen := rfl
    simp only [Option.map_some, e3, e4]
    cases hp : resp.pBuffer with
    | none => exact .pure rfl trivial
    | some b =>
      have hb := hu resp b rfl hp
      dsimp only
      by_cases c1 : resp.bufferLen = 0
      · rw [if_pos c1, if_pos c1]; exact .pure rfl trivial
      rw [if_neg c1, if_neg c1]
      cases field with
      | none => exact .pure rfl trivial
      | some field =>
        dsimp only
        by_cases c2 : field.length = 0
        · rw [if_pos c2, if_pos c2]; exact .pure rfl trivial
        rw [if_neg c2, if_neg c2]
        cases loc with
        | none => exact .pure rfl trivial
        | some loc =>
          cases len with
          | none => exact .pure rfl trivial
          | some len =>
            refine .same (Q := fun _ => True) ?_ fun x _ => .pure rfl trivial
            unfold findHeaderInResponse
            refine .world fun w W hw => ?_
            simp only [hw.mem b hb]
            refine Acts.elim ?_ hw
            refine .same (.ofRun _) fun data _ => .same (.emit _) fun _ _ => .same (findTree_acts hb 0 data field _ _) fun x _ => ?_
            refine .same (Q := fun _ => True) ?_ fun x _ => .pure rfl trivial
            by_cases c3 : x.2.2.2.fieldFound = false
            · rw [if_pos c3, if_pos c3]; exact .same (.assert _ _) fun _ _ => .pure rfl trivial
            rw [if_neg c3, if_neg c3]
            by_cases c4 : x.2.2.2.valueFound = false
            · rw [if_pos c4, if_pos c4]; exact .pure rfl trivial
            rw [if_neg c4, if_neg c4]
            exact .same (.assert _ _) fun _ _ => .pure rfl trivial

theorem clockOf_objs (o : Objs σ) : clockOf (p.objs o) = p.clock (clockOf o) := by
  obtain ⟨a, r⟩ := o
  cases r <;> rfl

theorem bufIn {own : Nat → Prop} {o o' : Objs σ} (ho : ObjsIn own o) (h1 : o'.req.bind ReqHeaders.pBuffer = o.req.bind ReqHeaders.pBuffer)
    (h2 : o'.resp.bind Resp.pBuffer = o.resp.bind Resp.pBuffer) : ObjsIn own o' := by
  refine ⟨fun h b e1 e2 => ?_, fun h b e1 e2 => ?_⟩
  · rw [e1] at h1
    cases hq : o.req with
    | none => rw [hq] at h1; simp [e2] at h1
    | some q => rw [hq] at h1; exact ho.req q b hq (by simpa [e2] using h1.symm)
  · rw [e1] at h2
    cases hq : o.resp with
    | none => rw [hq] at h2; simp [e2] at h2
    | some q => rw [hq] at h2; exact ho.resp q b hq (by simpa [e2] using h2.symm)

/-- A call in the program does what it does alone. -/
theorem runCall_acts (P : Parser) (cfg : Cfg) (fuel : Nat) (T : Option (Transport σ)) (o : Objs σ) (c : Call) (hou : ∀ b, own b → use b)
    (ho : ObjsIn own o) (hc : CallIn use c) :
    Acts p use own g0 m0 l L (runCall P cfg fuel (T.map p.transport) (p.objs o) c) (runCall P cfg fuel T o c) (liftReply p)
      (fun x => ObjsIn own x.2) := by
  have hu : ∀ h b, o.req = some h → h.pBuffer = some b → use b := fun h b e1 e2 => hou b (ho.req h b e1 e2)
  have hr : ∀ r b, o.resp = some r → r.pBuffer = some b → use b := fun h b e1 e2 => hou b (ho.resp h b e1 e2)
  have hin : ∀ r b, o.resp = some r → r.pBuffer = some b → use b ∧ own b := fun h b e1 e2 => ⟨hr h b e1 e2, ho.resp h b e1 e2⟩
  cases c with
  | init info => exact building_acts o ho fun m M hm => initialize_both cfg hm o.req info hu ho.req
  | addHeader field value => exact building_acts o ho fun m M hm => addHeaderApi_both cfg hm o.req field value hu ho.req
  | addRange a e => exact building_acts o ho fun m M hm => addRange_both cfg hm o.req a e hu ho.req
  | sendHeaders n flags =>
    unfold runCall
    rw [clockOf_objs]
    exact .same (sendHeaders_acts cfg fuel T (clockOf o) o.req n flags hu ho.req) fun x hx => .pure rfl (bufIn ho hx rfl)
  | sendData data len =>
    unfold runCall
    rw [clockOf_objs]
    refine .same (sendData_acts cfg fuel T (clockOf o) data len fun b e => ?_) fun x hx => .pure rfl ho
    subst e
    exact hc
  | receive =>
    refine .bind (receive_acts P cfg fuel T o.resp o.req hin hu) fun x hx => .pure rfl (bufIn ho rfl ?_)
    obtain ⟨r, hr', hx⟩ := hx
    rw [hr']
    exact hx
  | send body n flags =>
    refine .bind (send_acts P cfg fuel T o.req body n o.resp flags (fun b e => ?_) hu ho.req hin) fun x hx => .pure rfl (bufIn ho hx.1 hx.2)
    subst e
    exact hc
  | readHeader field loc len =>
    exact .same (readHeader_acts P o.resp field loc len hr) fun x _ => .pure rfl ho

end CoreHttp

import Verif.Lemmas.RecvTop
import Verif.Lemmas.RecvSim
import Verif.Lemmas.SendRecv
import Verif.Spec.Shared

/-! # Two runs of the receiving code that use different blocks for the response -/

namespace CoreHttp
open Spec
variable {σ S : Type}

/-- The worlds of the two runs: they agree but for the blocks, and there on the first `n` bytes. -/
structure WRel (n L b b' : Nat) (w w' : World PLog σ) : Prop where
  env : w'.env = w.env
  log : observable w'.log = observable w.log
  blk : (w'.mem b').take n = (w.mem b).take n
  le : n ≤ L
  lenA : L ≤ (w.mem b).length
  lenB : L ≤ (w'.mem b').length

/-- From related worlds the two programs come to related worlds, with related outcomes. -/
def Pair {α β : Type} (n L b b' : Nat) (x : M PLog σ α) (y : M PLog σ β) (R : α → β → Prop) (w w' : World PLog σ) : Prop :=
  WRel n L b b' (x w).2 (y w').2 ∧ SimRun R (x w).1 (y w').1

namespace Pair
variable {α β γ δ : Type} {n L b b' : Nat} {w w' : World PLog σ}

theorem pure {a : α} {c : β} {R : α → β → Prop} (h : R a c) (hw : WRel n L b b' w w') :
    Pair n L b b' (Pure.pure a : M PLog σ α) (Pure.pure c : M PLog σ β) R w w' := ⟨hw, h⟩
theorem fault {f : Fault} {R : α → β → Prop} (hw : WRel n L b b' w w') :
    Pair n L b b' (M.fault f : M PLog σ α) (M.fault f : M PLog σ β) R w w' := ⟨hw, rfl⟩
theorem bind {x : M PLog σ α} {y : M PLog σ β} {k : α → M PLog σ γ} {l : β → M PLog σ δ} {R : α → β → Prop} {Q : γ → δ → Prop}
    (h1 : Pair n L b b' x y R w w')
    (h2 : ∀ a c v v', R a c → x w = (.ok a, v) → WRel n L b b' v v' → Pair n L b b' (k a) (l c) Q v v') :
    Pair n L b b' (x >>= k) (y >>= l) Q w w' := by
  obtain ⟨h3, h4⟩ := h1
  unfold Pair
  simp only [M.bind_apply]
  rcases hx : x w with ⟨a | f | _, v⟩ <;> rcases hy : y w' with ⟨c | g | _, v'⟩ <;> rw [hx, hy] at h3 h4 <;>
    simp only [SimRun] at h3 h4 <;> try exact h4.elim
  · exact h2 a c v v' h4 hx h3
  · exact ⟨h3, h4⟩
  · exact ⟨h3, trivial⟩
/-- A step that does not depend on the world. -/
theorem ofRun {r : Run α} {k : α → M PLog σ γ} {l : α → M PLog σ δ} {Q : γ → δ → Prop} (hw : WRel n L b b' w w')
    (h : ∀ a, Pair n L b b' (k a) (l a) Q w w') : Pair n L b b' (M.ofRun r >>= k) (M.ofRun r >>= l) Q w w' := by
  unfold Pair
  simp only [M.bind_apply, M.ofRun_apply]
  cases r with
  | ok a => exact h a
  | fault f => exact ⟨hw, rfl⟩
  | more => exact ⟨hw, trivial⟩
/-- An assertion. -/
theorem assert {line : Nat} {c : Bool} {k : Unit → M PLog σ γ} {l : Unit → M PLog σ δ} {Q : γ → δ → Prop} (hw : WRel n L b b' w w')
    (h : Pair n L b b' (k ()) (l ()) Q w w') : Pair n L b b' (mAssert line c >>= k) (mAssert line c >>= l) Q w w' :=
  ofRun hw fun _ => h

end Pair

namespace WRel
variable {n L b b' : Nat} {w w' : World PLog σ}

theorem emit (h : WRel n L b b' w w') (e : Ev PLog) : WRel n L b b' { w with log := w.log ++ [e] } { w' with log := w'.log ++ [e] } :=
  { h with log := by simp only [observable_append, h.log] }

/-- Reads within the received data give the same. -/
theorem read (h : WRel n L b b' w w') {off len : Nat} (hl : off + len ≤ n) :
    memRead (w.mem b) off len = .ok (((w.mem b).drop off).take len) ∧ memRead (w'.mem b') off len = .ok (((w.mem b).drop off).take len) := by
  have h1 := h.le
  have h2 := h.lenA
  have h3 := h.lenB
  refine ⟨memRead_ok (by omega), ?_⟩
  rw [memRead_ok (by omega)]
  congr 1
  exact slice_congr (s := w'.mem b') (t := w.mem b) fun i _ hi => by
    have := congrArg (·[i]?) h.blk
    simpa only [List.getElem?_take, if_pos (show i < n by omega)] using this

/-- The same bytes are written to both blocks, so that `m` bytes now agree. -/
theorem write (h : WRel n L b b' w w') {off m : Nat} {bytes : Bytes} {s : σ} (hl : off + bytes.length ≤ L) (ho : off ≤ n) (hm : m ≤ max n (off + bytes.length)) :
    memWrite (w.mem b) off bytes = .ok (splice (w.mem b) off bytes) ∧ memWrite (w'.mem b') off bytes = .ok (splice (w'.mem b') off bytes) ∧
      WRel m L b b' ⟨s, w.mem.set b (splice (w.mem b) off bytes), w.log⟩ ⟨s, w'.mem.set b' (splice (w'.mem b') off bytes), w'.log⟩ := by
  have h1 := h.le
  have h2 := h.lenA
  have h3 := h.lenB
  refine ⟨memWrite_ok (by omega), memWrite_ok (by omega), rfl, h.log, ?_, by omega, ?_, ?_⟩
  · simp only [Mem.set_same]
    apply List.ext_getElem?
    intro i
    rw [List.getElem?_take, List.getElem?_take]
    split
    · rw [splice_getElem? (by omega), splice_getElem? (by omega)]
      split
      · have := congrArg (·[i]?) h.blk
        simpa only [List.getElem?_take, if_pos (show i < n by omega)] using this
      · split
        · rfl
        · have := congrArg (·[i]?) h.blk
          simpa only [List.getElem?_take, if_pos (show i < n by omega)] using this
    · rfl
  · simp only [Mem.set_same]; rw [splice_length (by omega)]; exact h2
  · simp only [Mem.set_same]; rw [splice_length (by omega)]; exact h3

end WRel

variable {n L b b' : Nat} {w w' : World PLog σ} {p' : Option Nat}

/-- The state with another response buffer. -/
def reb (p' : Option Nat) (h : RS S σ) : RS S σ := ⟨{ h.resp with pBuffer := p' }, h.ctx⟩

theorem processCompleteHeader_pair (cfg : Cfg) (h : RS S σ) (hw : WRel n L b b' w w')
    (hF : ∀ f, h.ctx.lastField = some f → f + h.ctx.lastFieldLen ≤ n) (hV : ∀ f, h.ctx.lastValue = some f → f + h.ctx.lastValueLen ≤ n) :
    Pair n L b b' (processCompleteHeader cfg b h) (processCompleteHeader cfg b' (reb p' h)) (fun x y => y = reb p' x) w w' := by
  obtain ⟨resp, ctx⟩ := h
  unfold processCompleteHeader reb
  dsimp only at hF hV ⊢
  cases hf : ctx.lastField with
  | none => exact .pure rfl hw
  | some f =>
    cases hv : ctx.lastValue with
    | none => exact .pure rfl hw
    | some v =>
      refine .assert hw ?_
      cases resp.pHeaderParsingCallback with
      | none => simp only [pure_bind]; exact .pure rfl hw
      | some cb =>
        cases cb with
        | null => exact .fault hw
        | user cb =>
        obtain ⟨a1, a2⟩ := hw.read (hF f hf)
        obtain ⟨c1, c2⟩ := hw.read (hV v hv)
        unfold Pair
        simp only [M.bind_apply, M.world_apply, M.ofRun_apply, a1, a2, c1, c2, M.setEnv_apply, M.emit_apply, M.pure_apply]
        exact ⟨{ hw with env := by simp only [hw.env], log := by simp only [observable_append, hw.log] }, rfl⟩

theorem recvCallback_pair {cfg : Cfg} {strict : Bool} {r0 : Resp σ} {head : Bool} {stream : Bytes} {ph : Phase} {base lo : Nat} {v : View}
    {span : Option (Nat × Nat)} {h : RS S σ} {e : PEv} (hi : RInv cfg strict r0 head stream ph base lo v span h (w.mem b))
    (hev : EvOk strict base (stream.length - base) ph lo e) (hw : WRel stream.length r0.bufferLen b b' w w') :
    Pair stream.length r0.bufferLen b b' (recvCallback cfg b base e h) (recvCallback cfg b' base e (reb p' h))
      (fun x y => y = (x.1, reb p' x.2)) w w' := by
  have hlo := hi.lo_le
  have hF : ∀ f, h.ctx.lastField = some f → f + h.ctx.lastFieldLen ≤ stream.length := fun f hf => by have := hi.bndF f hf; omega
  have hV : ∀ f, h.ctx.lastValue = some f → f + h.ctx.lastValueLen ≤ stream.length := fun f hf => by have := hi.bndV f hf; omega
  have hsp := span_le hev
  have hbl := hi.base_le
  have hfits := hi.fits
  obtain ⟨resp, ctx⟩ := h
  dsimp only at hF hV
  cases e with
  | messageBegin => exact .pure rfl hw
  | messageComplete => exact .pure rfl hw
  | status off len code => exact .assert hw (.pure rfl hw)
  | statusComplete code => exact .assert hw (.pure rfl hw)
  | headerField off len =>
    refine .assert hw (.bind (processCompleteHeader_pair (p' := p') cfg
      ⟨{ resp with pHeaders := headersStart resp.pHeaders (base + off) }, { ctx with cur := some (base + off + len) }⟩ hw hF hV) ?_)
    rintro ⟨r, x⟩ y v v' rfl _ hw1
    unfold reb
    dsimp only
    cases x.lastField with
    | none => exact .pure rfl hw1
    | some _ => exact .assert hw1 (.pure rfl hw1)
  | headerValue off len => exact .assert hw (.pure rfl hw)
  | headersComplete at_ cl cc ka =>
    simp only [recvCallback, onHeadersComplete, reb]
    cases ctx.cur with
    | none => exact .fault hw
    | some cur =>
      dsimp only
      refine .assert hw (.assert hw ?_)
      have hh : Pair stream.length r0.bufferLen b b' (headersLength resp.pHeaders cur : M PLog σ Nat) (headersLength resp.pHeaders cur) Eq w w' := by
        unfold headersLength
        cases resp.pHeaders with
        | none => exact .pure rfl hw
        | some p => exact .assert hw (.pure rfl hw)
      refine .bind hh ?_
      rintro hl _ v v' rfl _ hw1
      refine .bind (processCompleteHeader_pair (p' := p') cfg ⟨_, ctx⟩ hw1 hF hV) ?_
      rintro ⟨r, x⟩ y v v' rfl _ hw2
      exact .pure rfl hw2
  | body off len =>
    obtain ⟨pbuf, blen, cb, gt, phd, hlen, pbody, bodyLen, code, clen, hcnt, ahc, opt, flg⟩ := resp
    show Pair _ _ _ _ (onBody cfg b (base + off) len _) (onBody cfg b' (base + off) len
      ⟨⟨p', blen, cb, gt, phd, hlen, pbody, bodyLen, code, clen, hcnt, ahc, opt, flg⟩, ctx⟩) _ w w'
    unfold onBody
    dsimp only
    refine .assert hw (.assert hw ?_)
    have key : ∀ p bl (x y : CbRet × RS S σ), base + off > p + bl → y = (x.1, reb p' x.2) → Pair stream.length r0.bufferLen b b'
        (do
          let w ← M.world
          let bytes ← M.ofRun (memRead (w.mem b) (base + off) len)
          let blk ← M.ofRun (memWrite (w.mem b) (p + bl) bytes)
          M.setMem (w.mem.set b blk)
          pure x : M PLog σ _)
        (do
          let w ← M.world
          let bytes ← M.ofRun (memRead (w.mem b') (base + off) len)
          let blk ← M.ofRun (memWrite (w.mem b') (p + bl) bytes)
          M.setMem (w.mem.set b' blk)
          pure y : M PLog σ _) (fun x y => y = (x.1, reb p' x.2)) w w' := by
      intro p bl x y hgt hxy
      simp only [PEv.span] at hsp
      obtain ⟨a1, a2⟩ := hw.read (off := base + off) (len := len) (by omega)
      have hlen : (((w.mem b).drop (base + off)).take len).length = len := by
        have := hw.lenA
        simp only [List.length_take, List.length_drop]; omega
      obtain ⟨c1, c2, c3⟩ := hw.write (m := stream.length) (s := w.env) (bytes := ((w.mem b).drop (base + off)).take len) (off := p + bl)
        (by rw [hlen]; omega) (by omega) (by omega)
      unfold Pair
      simp only [M.bind_apply, M.world_apply, M.ofRun_apply, a1, a2, c1, c2, M.setMem_apply, M.pure_apply]
      exact ⟨{ c3 with env := hw.env }, hxy⟩
    cases pbody with
    | none =>
      dsimp only
      by_cases hgt : base + off > base + off + 0
      · omega
      · rw [if_neg hgt, if_neg hgt]; exact .pure rfl hw
    | some q =>
      dsimp only
      by_cases hgt : base + off > q + bodyLen
      · rw [if_pos hgt, if_pos hgt]
        exact key q bodyLen _ _ hgt rfl
      · rw [if_neg hgt, if_neg hgt]; exact .pure rfl hw

theorem runTree_pair {Inv : S → Phase → Nat → Nat → Prop} {cfg : Cfg} {strict : Bool} {r0 : Resp σ} {head : Bool} {stream : Bytes} {base : Nat}
    {data : Bytes} (hdata : data = stream.drop base) (hz : data.length = 0 → base < r0.bufferLen) (tree : PTree S) :
    ∀ (ph : Phase) (lo : Nat) (v : View) (span : Option (Nat × Nat)) (h : RS S σ) (w w' : World PLog σ),
    RInv cfg strict r0 head stream ph base lo v span h (w.mem b) → TreeOk strict Inv base data.length tree ph lo →
    WRel stream.length r0.bufferLen b b' w w' →
    Pair stream.length r0.bufferLen b b' (runTree b base data (recvCallback cfg b base) tree h) (runTree b' base data (recvCallback cfg b' base) tree (reb p' h))
      (fun x y => y = (x.1, x.2.1, x.2.2.1, reb p' x.2.2.2)) w w' := by
  have hdl : stream.length - base = data.length := by rw [hdata]; simp
  induction tree with
  | done er ep s =>
    intro ph lo v span h w w' hi hok hw
    exact ⟨hw.emit _, rfl⟩
  | call e k ih =>
    intro ph lo v span h w w' hi hok hw
    obtain ⟨hev, hk⟩ := hok
    obtain ⟨h1, blk1, s1, hevs, hrun, hcore, _⟩ := recvCallback_step
      (w := { w with log := w.log ++ [.parserEvent (.obs (e.observe base data))] }) hi (by rw [hdl]; exact hev) (by rw [hdl]; exact hz)
    have hp := recvCallback_pair (p' := p') (w := { w with log := w.log ++ [.parserEvent (.obs (e.observe base data))] })
      (w' := { w' with log := w'.log ++ [.parserEvent (.obs (e.observe base data))] }) hi (by rw [hdl]; exact hev) (hw.emit _)
    rw [Pair, hrun] at hp
    obtain ⟨hp1, hp2⟩ := hp
    unfold Pair
    simp only [runTree, M.bind_apply, M.emit_apply, hrun, M.world_apply]
    generalize hy : recvCallback cfg b' base e (reb p' h) { w' with log := w'.log ++ [.parserEvent (.obs (e.observe base data))] } = y at hp1 hp2
    obtain ⟨r | f | _, v'⟩ := y
    · simp only [SimRun] at hp2
      subst hp2
      dsimp only at hp1 ⊢
      have hlog : observable (v'.log ++ [.parserEvent (.mem (v'.mem b'))]) =
          observable (w.log ++ [.parserEvent (.obs (e.observe base data))] ++ hevs ++ [.parserEvent (.mem ((w.mem.set b blk1) b))]) := by
        have := hp1.log
        dsimp only at this
        rw [observable_append, observable_append (_ ++ _), this]; rfl
      have := ih (policy r0.respOptionFlags head e) _ _ _ _ h1
        ⟨s1, w.mem.set b blk1, w.log ++ [.parserEvent (.obs (e.observe base data))] ++ hevs ++ [.parserEvent (.mem ((w.mem.set b blk1) b))]⟩
        { v' with log := v'.log ++ [.parserEvent (.mem (v'.mem b'))] } (by dsimp only; rw [Mem.set_same]; exact hcore)
        (hk _ (policy_retOk _ _ _)) { hp1 with log := hlog }
      exact this
    · exact hp2.elim
    · exact hp2.elim

variable {P : Parser} {cfg : Cfg} {strict : Bool} {r0 : Resp σ} {head : Bool} {m0 : Mem} {log0 : List (Ev PLog)}

theorem bindResponse_reb (h : RS S σ) : bindResponse (reb p' h) = reb p' (bindResponse h) := by
  obtain ⟨resp, ctx⟩ := h
  unfold bindResponse reb
  dsimp only
  by_cases hb : ctx.bound = false
  · rw [if_pos hb, if_pos hb]
  · rw [if_neg hb, if_neg hb]

theorem parse_pair {Inv : P.St → Phase → Nat → Nat → Prop}
    (hP : ∀ s ph base lo data, Inv s ph base lo → lo ≤ base → TreeOk strict Inv base data.length (P.exec s data) ph lo)
    {ph : Phase} {base lo : Nat} {evs : List (Ev PLog)} {h : RS P.St σ}
    (ht : TInv cfg strict b r0 head m0 log0 ph base lo evs (bindResponse h) w)
    (hinv : Inv h.ctx.parser ph base lo) (hlo : lo ≤ base)
    (hz : (received evs).length - base = 0 → base < r0.bufferLen)
    (hw : WRel (received evs).length r0.bufferLen b b' w w') :
    Pair (received evs).length r0.bufferLen b b' (parseHttpResponse P cfg b h ((received evs).length - base))
      (parseHttpResponse P cfg b' (reb p' h) ((received evs).length - base)) (fun x y => y = (x.1, reb p' x.2)) w w' := by
  have hbl := ht.core.base_le
  have hroom := ht.core.room
  have hfits := ht.core.fits
  obtain ⟨c, hc, hc1, hc2, _⟩ := ht.core.cur
  obtain rfl : c = base := by omega
  obtain ⟨a1, a2⟩ := hw.read (off := c) (len := (received evs).length - c) (by omega)
  have hdata : ((w.mem b).drop c).take ((received evs).length - c) = (received evs).drop c := by
    have h2 : slice (received evs) c ((received evs).length - c) = (received evs).drop c := by
      unfold slice; rw [List.take_of_length_le (by simp)]
    rw [← h2]
    exact slice_congr fun i hi1 hi2 => ht.core.agree i (by omega) fun p e he => by
      have := spanEnd_le ht.core p e he
      right; omega
  rw [hdata] at a1 a2
  have hc' : (reb p' (bindResponse h)).ctx.cur = some c := hc
  have hpar : (reb p' (bindResponse h)).ctx.parser = h.ctx.parser := bindResponse_parser h
  unfold parseHttpResponse Pair
  rw [bindResponse_reb]
  simp only [hc, hc', hpar, M.bind_apply, M.world_apply, M.ofRun_apply, a1, a2, M.emit_apply, bindResponse_parser]
  have hp := runTree_pair (p' := p') (Inv := Inv) (data := (received evs).drop c) rfl (by simpa using hz) (P.exec h.ctx.parser ((received evs).drop c)) ph lo _ _
    (bindResponse h) { w with log := w.log ++ [.parserCall c ((received evs).drop c)] } { w' with log := w'.log ++ [.parserCall c ((received evs).drop c)] } ht.core (hP _ _ _ _ _ hinv hlo) (hw.emit _)
  obtain ⟨h1, h2⟩ := hp
  generalize runTree b c ((received evs).drop c) (recvCallback cfg b c) (P.exec h.ctx.parser ((received evs).drop c)) (bindResponse h)
    { w with log := w.log ++ [.parserCall c ((received evs).drop c)] } = x at h1 h2
  generalize runTree b' c ((received evs).drop c) (recvCallback cfg b' c) (P.exec h.ctx.parser ((received evs).drop c)) (reb p' (bindResponse h))
    { w' with log := w'.log ++ [.parserCall c ((received evs).drop c)] } = y at h1 h2
  obtain ⟨x | f | _, v⟩ := x <;> obtain ⟨y | g | _, v'⟩ := y <;> simp only [SimRun] at h1 h2
  · subst h2
    exact ⟨h1, rfl⟩
  · exact ⟨h1, h2⟩
  · exact ⟨h1, trivial⟩

/-- Both runs read the same time. -/
theorem clock_pair {gt : TimeFn σ} {n L b b' : Nat} {w w' : World PLog σ} {t : UInt32} {s : σ}
    (ht : readClock (π := PLog) gt w = (.ok t, ⟨s, w.mem, w.log ++ [.time t]⟩)) (hw : WRel n L b b' w w') :
    readClock (π := PLog) gt w' = (.ok t, ⟨s, w'.mem, w'.log ++ [.time t]⟩) ∧
      WRel n L b b' ⟨s, w.mem, w.log ++ [.time t]⟩ ⟨s, w'.mem, w'.log ++ [.time t]⟩ := by
  refine ⟨?_, { hw with env := rfl, log := by simp only [observable_append, hw.log] }⟩
  cases gt with
  | null => simp [readClock] at ht
  | zero =>
    simp only [readClock, M.bind_apply, M.emit_apply, M.pure_apply, Prod.mk.injEq, Run.ok.injEq, World.mk.injEq] at ht ⊢
    obtain ⟨rfl, rfl, _⟩ := ht
    simp [hw.env]
  | user f =>
    simp only [readClock, M.bind_apply, M.world_apply, M.setEnv_apply, M.emit_apply, M.pure_apply, Prod.mk.injEq, Run.ok.injEq, World.mk.injEq, hw.env] at ht ⊢
    obtain ⟨rfl, rfl, _⟩ := ht
    simp

/-- The receiving loop. -/
theorem recvLoop_pair {Inv : P.St → Phase → Nat → Nat → Prop}
    (hP : ∀ s ph base lo data, Inv s ph base lo → lo ≤ base → TreeOk strict Inv base data.length (P.exec s data) ph lo)
    {recv : σ → Nat → Int × Bytes × σ} (hR : RecvOk recv) (hRF : RecvFills recv) (hclock : r0.getTime ≠ .null) (T : UInt32) :
    ∀ (fuel : Nat) (last : UInt32) (ph : Phase) (lo : Nat) (evs : List (Ev PLog)) (h : RS P.St σ) (w w' : World PLog σ),
    Ready P Inv cfg strict b r0 head m0 log0 ph lo evs h w → (received evs).length < r0.bufferLen → msgState evs ≠ .complete →
    WRel (received evs).length r0.bufferLen b b' w w' →
    ∃ k, WRel k r0.bufferLen b b' (recvLoop P cfg recv T b fuel (received evs).length last h w).2
        (recvLoop P cfg recv T b' fuel (received evs).length last (reb p' h) w').2 ∧
      SimRun (fun x y => y = (x.1, x.2.1, reb p' x.2.2) ∧ k = x.2.1) (recvLoop P cfg recv T b fuel (received evs).length last h w).1
        (recvLoop P cfg recv T b' fuel (received evs).length last (reb p' h) w').1 := by
  intro fuel
  induction fuel with
  | zero =>
    intro last ph lo evs h w w' hr hlt hst hw
    exact ⟨_, hw, trivial⟩
  | succ n ih =>
    intro last ph lo evs h w w' hr hlt hst hw
    have hbuf : h.resp.bufferLen = r0.bufferLen := by rw [← bindResponse_bufferLen]; exact hr.tinv.core.bufLen
    have hgt : h.resp.getTime = r0.getTime := by rw [← bindResponse_getTime]; exact hr.tinv.core.gt
    have hbuf' : (reb p' h).resp.bufferLen = r0.bufferLen := hbuf
    have hgt' : (reb p' h).resp.getTime = r0.getTime := hgt
    have hstate : h.ctx.state = msgState evs := by rw [← bindResponse_state]; exact hr.tinv.core.state
    have hstate' : (reb p' h).ctx.state = msgState evs := hstate
    unfold recvLoop
    simp only [M.bind_apply, M.world_apply, M.ofRun_apply, hbuf, hbuf', hw.env]
    obtain ⟨hR1, hR2⟩ := hR w.env (r0.bufferLen - (received evs).length)
    have hR3 := hRF w.env (r0.bufferLen - (received evs).length)
    generalize recv w.env (r0.bufferLen - (received evs).length) = rr at hR1 hR2 hR3
    obtain ⟨ret, bytes, s'⟩ := rr
    dsimp only at hR1 hR2 hR3 ⊢
    obtain ⟨blk, hwr, hlen, hi1⟩ := recv_inv (s' := s') hr.tinv hlt hR1 hR2
    obtain ⟨a1, a2, a3⟩ := hw.write (m := (received evs).length + ret.toNat) (s := s') (bytes := bytes) (off := (received evs).length) (by omega)
      (Nat.le_refl _) (by omega)
    obtain rfl : splice (w.mem b) (received evs).length bytes = blk := by rw [a1] at hwr; exact Run.ok.inj hwr
    have hsl : slice (splice (w'.mem b') (received evs).length bytes) (received evs).length ret.toNat =
        slice (splice (w.mem b) (received evs).length bytes) (received evs).length ret.toNat := by
      have hb := a3.blk
      simp only [Mem.set_same] at hb
      refine slice_congr fun i _ hi => ?_
      have := congrArg (·[i]?) hb
      simpa only [List.getElem?_take, if_pos (show i < (received evs).length + ret.toNat by omega)] using this
    simp only [a1, a2, hsl, M.setEnv_apply, M.setMem_apply, M.emit_apply]
    generalize hD : slice (splice (w.mem b) (received evs).length bytes) (received evs).length ret.toNat = D at *
    have a4 := a3.emit (.recv (received evs).length (r0.bufferLen - (received evs).length) ret D)
    dsimp only at a4
    by_cases hneg : ret < 0
    · rw [if_pos hneg, if_pos hneg]
      rw [show ret.toNat = 0 by omega] at a4
      exact ⟨_, a4, rfl, rfl⟩
    · rw [if_neg hneg, if_neg hneg]
      obtain ⟨t, s2, ht⟩ := readClock_ok hclock (⟨s', w.mem.set b (splice (w.mem b) (received evs).length bytes), w.log ++
        [.recv (received evs).length (r0.bufferLen - (received evs).length) ret D]⟩ : World PLog σ)
      obtain ⟨ht', a5⟩ := clock_pair ht a4
      dsimp only at ht' a5
      have hi2 := time_inv (s' := s2) hi1 t
      have hrec2 : received (evs ++ [.recv (received evs).length (r0.bufferLen - (received evs).length) ret D] ++ [.time t]) =
          received evs ++ D := by simp [received]
      have hpar2 : parsed (evs ++ [.recv (received evs).length (r0.bufferLen - (received evs).length) ret D] ++ [.time t]) =
          received evs := by simp [parsed, hr.parsedAll]
      have hfed2 : (obsOf (evs ++ [.recv (received evs).length (r0.bufferLen - (received evs).length) ret D] ++ [.time t]),
          (received evs).length, h.ctx.parser, .ok) = feedAll P (policy r0.respOptionFlags head)
            (calls (evs ++ [.recv (received evs).length (r0.bufferLen - (received evs).length) ret D] ++ [.time t])) := by
        simp only [obsOf_append, obsOf, calls_append, calls, List.append_nil]; exact hr.fed
      have hne2 : ∀ er ep, .parserEvent (.ret er ep) ∈
          (evs ++ [.recv (received evs).length (r0.bufferLen - (received evs).length) ret D] ++ [.time t]) → er ≠ .invalidEofState := by
        intro er ep hm
        simp only [List.mem_append, List.mem_singleton, reduceCtorEq, or_false] at hm
        exact hr.noEof er ep hm
      have hn : (received (evs ++ [.recv (received evs).length (r0.bufferLen - (received evs).length) ret D] ++ [.time t])).length -
          (received evs).length = ret.toNat := by rw [hrec2]; simp [hlen]
      have htot : (received evs).length + ret.toNat = (received evs ++ D).length := by simp [hlen]
      have a6 := a5
      rw [htot, ← hrec2] at a6
      by_cases hpos : ret > 0
      · -- data
        rw [if_pos hpos, if_pos hpos]
        simp only [M.bind_apply, hgt, hgt', ht, ht']
        obtain ⟨er, ep, h', w1, seg, hparse, hseg, hfin, hbd, hst', hgo⟩ := parse_spec (h := h) hP hi2 hr.inv hr.lo_le
          (by rw [hpar2]) (by rw [hpar2, hrec2]; simp) hfed2 (by rw [hrec2]; simp; omega) hne2
        have hpair := parse_pair (p' := p') (h := h) hP hi2 hr.inv hr.lo_le (by rw [hrec2]; simp; omega) a6
        have hdrop : (received (evs ++ [.recv (received evs).length (r0.bufferLen - (received evs).length) ret D] ++ [.time t])).drop
            (received evs).length = D := by rw [hrec2]; simp
        rw [Pair, hparse] at hpair
        rw [hn] at hparse hpair
        rw [hdrop] at hfin hst' hgo
        rw [hparse]
        obtain ⟨hp1, hp2⟩ := hpair
        generalize parseHttpResponse P cfg b' (reb p' h) ret.toNat ⟨s2, w'.mem.set b' (splice (w'.mem b') (received evs).length bytes),
          w'.log ++ [.recv (received evs).length (r0.bufferLen - (received evs).length) ret D] ++ [.time t]⟩ = y at hp1 hp2 ⊢
        obtain ⟨y | g | _, w1'⟩ := y <;> simp only [SimRun] at hp2
        subst hp2
        dsimp only at hp1 ⊢
        have hassoc : evs ++ [.recv (received evs).length (r0.bufferLen - (received evs).length) ret D] ++ [.time t] ++
            (.parserCall (received evs).length D :: seg) = evs ++ (.recv (received evs).length (r0.bufferLen - (received evs).length) ret D ::
              .time t :: .parserCall (received evs).length D :: seg) := by simp
        rw [hassoc] at hfin hst' hgo
        rw [hrec2] at hfin hp1
        have hb1 : h'.resp.bufferLen = r0.bufferLen := by
          obtain ⟨ph', base', lo', hT, _⟩ := hfin.tinv
          rw [← bindResponse_bufferLen]; exact hT.core.bufLen
        have hb1' : (reb p' h').resp.bufferLen = r0.bufferLen := hb1
        have hs1' : (reb p' h').ctx.state = h'.ctx.state := rfl
        rw [hb1, hb1', hs1', htot]
        by_cases hcont : processLlhttpError er = .success ∧ h'.ctx.state ≠ .complete ∧ (received evs ++ D).length < r0.bufferLen
        · rw [if_pos hcont, if_pos hcont]
          obtain ⟨hc1, hc2, hc3⟩ := hcont
          obtain ⟨hok, ph', lo', hready⟩ := hgo hc1 hc2
          have hrec3 : received (evs ++ (.recv (received evs).length (r0.bufferLen - (received evs).length) ret D ::
              .time t :: .parserCall (received evs).length D :: seg)) = received evs ++ D := by
            simp [received, hseg.received.1]
          have := ih t ph' lo' _ h' w1 w1' hready (by rw [hrec3]; exact hc3) (by unfold msgState; rw [← hst']; exact hc2) (by rw [hrec3]; exact hp1)
          rw [hrec3] at this
          exact this
        · rw [if_neg hcont, if_neg hcont]
          exact ⟨_, hp1, rfl, rfl⟩
      · -- nothing received
        obtain rfl : ret = 0 := by omega
        have hD0 : D = [] := List.length_eq_zero_iff.mp hlen
        subst hD0
        rw [if_neg hpos, if_neg hpos]
        simp only [M.bind_apply, hgt, hgt', ht, ht']
        by_cases hto : t - last ≥ T
        · -- timeout
          rw [if_pos hto, if_pos hto]
          simp only [M.bind_apply]
          have hpair := parse_pair (p' := p') (h := h) hP hi2 hr.inv hr.lo_le (by intro _; exact hlt) a6
          rw [hn] at hpair
          rw [hrec2, List.append_nil, show Int.toNat 0 = 0 from rfl] at hpair
          obtain ⟨hp1, hp2⟩ := hpair
          generalize parseHttpResponse P cfg b h 0 ⟨s2, w.mem.set b (splice (w.mem b) (received evs).length bytes),
            w.log ++ [.recv (received evs).length (r0.bufferLen - (received evs).length) 0 []] ++ [.time t]⟩ = x at hp1 hp2 ⊢
          generalize parseHttpResponse P cfg b' (reb p' h) 0 ⟨s2, w'.mem.set b' (splice (w'.mem b') (received evs).length bytes),
            w'.log ++ [.recv (received evs).length (r0.bufferLen - (received evs).length) 0 []] ++ [.time t]⟩ = y at hp1 hp2 ⊢
          obtain ⟨x | f | _, w1⟩ := x <;> obtain ⟨y | g | _, w1'⟩ := y <;> simp only [SimRun] at hp2
          · subst hp2
            exact ⟨_, hp1, rfl, rfl⟩
          · exact ⟨_, hp1, hp2⟩
          · exact ⟨_, hp1, trivial⟩
        · -- retry
          rw [if_neg hto, if_neg hto]
          have hcond : h.ctx.state ≠ .complete ∧ (received evs).length < r0.bufferLen := ⟨by rw [hstate]; exact hst, hlt⟩
          have hcond' : (reb p' h).ctx.state ≠ .complete ∧ (received evs).length < r0.bufferLen := hcond
          rw [if_pos hcond, if_pos hcond']
          have hready : Ready P Inv cfg strict b r0 head m0 log0 ph lo
              (evs ++ [.recv (received evs).length (r0.bufferLen - (received evs).length) 0 []] ++ [.time t]) h
              ⟨s2, w.mem.set b (splice (w.mem b) (received evs).length bytes), w.log ++ [.recv (received evs).length (r0.bufferLen - (received evs).length) 0 []] ++ [.time t]⟩ := {
            tinv := by
              rw [hrec2, List.append_nil]; exact hi2
            inv := by rw [hrec2, List.append_nil]; exact hr.inv
            lo_le := by rw [hrec2, List.append_nil]; exact hr.lo_le
            live := hr.live
            parsedAll := by rw [hrec2, hpar2, List.append_nil]
            fed := by rw [hrec2, List.append_nil]; exact hfed2
            fresh := fun h => ⟨(hr.fresh h).1, by simpa [obsOf] using (hr.fresh h).2⟩
            noEof := hne2 }
          have := ih last ph lo _ h _ _ hready (by rw [hrec2, List.append_nil]; exact hlt)
            (by simpa [msgState, obsOf] using hst) a6
          rw [hrec2, List.append_nil] at this
          exact this

theorem finishReceive_pair (cfg : Cfg) (st : Status) (total : Nat) (h : RS S σ) (w w' : World PLog σ) :
    (finishReceive cfg st total h w).2 = w ∧ (finishReceive cfg st total (reb p' h) w').2 = w' ∧
      SimRun (fun x y => y = (x.1, { x.2 with pBuffer := p' })) (finishReceive cfg st total h w).1 (finishReceive cfg st total (reb p' h) w').1 := by
  obtain ⟨resp, ctx⟩ := h
  have key : ∀ (st : Status) (r : Resp σ), ((do
        if st = .success then do
          let st ← getFinalResponseStatus ctx.state total r
          pure (st, r)
        else pure (st, r) : M PLog σ (Status × Resp σ)) w).2 = w ∧
      ((do
        if st = .success then do
          let st ← getFinalResponseStatus ctx.state total { r with pBuffer := p' }
          pure (st, { r with pBuffer := p' })
        else pure (st, { r with pBuffer := p' }) : M PLog σ (Status × Resp σ)) w').2 = w' ∧
      SimRun (fun x y => y = (x.1, { x.2 with pBuffer := p' })) ((do
        if st = .success then do
          let st ← getFinalResponseStatus ctx.state total r
          pure (st, r)
        else pure (st, r) : M PLog σ (Status × Resp σ)) w).1 ((do
        if st = .success then do
          let st ← getFinalResponseStatus ctx.state total { r with pBuffer := p' }
          pure (st, { r with pBuffer := p' })
        else pure (st, { r with pBuffer := p' }) : M PLog σ (Status × Resp σ)) w').1 := by
    intro st r
    by_cases h1 : st = .success
    · rw [if_pos h1, if_pos h1]
      unfold getFinalResponseStatus
      by_cases h2 : total ≤ r.bufferLen
      · simp only [M.bind_apply, decide_eq_true h2, mAssert_true, M.pure_apply]
        refine ⟨?_, ?_, ?_⟩ <;> first | rfl | trivial
      · simp only [M.bind_apply, decide_eq_false h2]
        exact ⟨rfl, rfl, rfl⟩
    · rw [if_neg h1, if_neg h1]
      exact ⟨rfl, rfl, rfl⟩
  unfold finishReceive reb
  dsimp only
  by_cases h1 : st = .parserPaused ∧ resp.respOptionFlags &&& DO_NOT_PARSE_BODY_FLAG ≠ 0
  · rw [if_pos h1, if_pos h1]
    cases hc : ctx.cur with
    | none => exact ⟨rfl, rfl, rfl⟩
    | some cur => exact key .success { resp with pBody := some cur, bodyLen := szSub cfg total cur }
  · rw [if_neg h1, if_neg h1]
    exact key st resp

/-- HTTPClient_ReceiveAndParseHttpResponse. -/
theorem receive_pair₂ {T : Transport σ} {recv : σ → Nat → Int × Bytes × σ} {resp : Resp σ} {rh : ReqHeaders} {rb : Nat} {w z : World PLog σ}
    (hp : RecvPre strict P cfg T recv resp rh b rb w.mem) (hp' : RecvPre strict P cfg T recv { resp with pBuffer := some b' } rh b' rb z.mem)
    (hz1 : z.env = w.env) (hz2 : observable z.log = observable w.log) (hz3 : startsHead z.mem rb = startsHead w.mem rb)
    (hRF : RecvFills recv) (fuel : Nat) :
    ∃ k, WRel k resp.bufferLen b b' (HTTPClient_ReceiveAndParseHttpResponse P cfg fuel (some T) (some resp) (some rh) w).2
        (HTTPClient_ReceiveAndParseHttpResponse P cfg fuel (some T) (some { resp with pBuffer := some b' }) (some rh) z).2 ∧
      SimRun (fun x y => y = (x.1, { x.2 with pBuffer := some b' }) ∧ x.2.pBuffer = some b ∧
          ∃ evs, (HTTPClient_ReceiveAndParseHttpResponse P cfg fuel (some T) (some resp) (some rh) w).2.log = w.log ++ evs ∧ k = (received evs).length)
        (HTTPClient_ReceiveAndParseHttpResponse P cfg fuel (some T) (some resp) (some rh) w).1
        (HTTPClient_ReceiveAndParseHttpResponse P cfg fuel (some T) (some { resp with pBuffer := some b' }) (some rh) z).1 := by
  obtain ⟨Inv, hinit, hP⟩ := id hp.parser
  obtain ⟨r, v, t0, s0, tr, ht0, hrun, hlog, _, _, hcase⟩ := receive_spec' hp fuel
  have hready := receive_ready hp hinit t0 s0
  have hw0 : WRel (received ([.time t0] : List (Ev PLog))).length resp.bufferLen b b' ⟨s0, w.mem, w.log ++ [.time t0]⟩ ⟨s0, z.mem, z.log ++ [.time t0]⟩ :=
    ⟨rfl, by simp [hz2], by simp [received], by simp [received], hp.room, hp'.room⟩
  obtain ⟨k, h1, h2⟩ := recvLoop_pair (p' := some b') hP hp.recvOk hRF hp.clock (retryTimeout resp.getTime cfg.recvTimeoutMs) fuel t0 .idle 0 [.time t0] _ _ _ hready
    hp.pos (by simp [msgState, view, obsOf, View.empty]) hw0
  have ht0' : readClock (π := PLog) resp.getTime z = (.ok t0, ⟨s0, z.mem, z.log ++ [.time t0]⟩) := by
    revert ht0
    unfold readClock
    cases resp.getTime <;> simp [M.bind_apply, M.world_apply, hz1]
  have hs' := receive_start hp' fuel ht0'
  rw [hz3] at hs'
  rw [hrun]
  rw [hs']
  simp only [M.bind_apply]
  change WRel k resp.bufferLen b b' (recvLoop P cfg recv (retryTimeout resp.getTime cfg.recvTimeoutMs) b fuel 0 t0
    ⟨resp, ⟨P.init, .none, false, startsHead w.mem rb, none, none, 0, none, 0⟩⟩ ⟨s0, w.mem, w.log ++ [.time t0]⟩).2
    (recvLoop P cfg recv (retryTimeout resp.getTime cfg.recvTimeoutMs) b' fuel 0 t0
    ⟨{ resp with pBuffer := some b' }, ⟨P.init, .none, false, startsHead w.mem rb, none, none, 0, none, 0⟩⟩ ⟨s0, z.mem, z.log ++ [.time t0]⟩).2 at h1
  change SimRun _ (recvLoop P cfg recv (retryTimeout resp.getTime cfg.recvTimeoutMs) b fuel 0 t0
    ⟨resp, ⟨P.init, .none, false, startsHead w.mem rb, none, none, 0, none, 0⟩⟩ ⟨s0, w.mem, w.log ++ [.time t0]⟩).1
    (recvLoop P cfg recv (retryTimeout resp.getTime cfg.recvTimeoutMs) b' fuel 0 t0
    ⟨{ resp with pBuffer := some b' }, ⟨P.init, .none, false, startsHead w.mem rb, none, none, 0, none, 0⟩⟩ ⟨s0, z.mem, z.log ++ [.time t0]⟩).1 at h2
  have hs := receive_start hp fuel ht0
  rw [hrun] at hs
  generalize recvLoop P cfg recv (retryTimeout resp.getTime cfg.recvTimeoutMs) b' fuel 0 t0
    ⟨{ resp with pBuffer := some b' }, ⟨P.init, .none, false, startsHead w.mem rb, none, none, 0, none, 0⟩⟩ ⟨s0, z.mem, z.log ++ [.time t0]⟩ = y at h1 h2
  rcases hcase with ⟨rfl, _⟩ | ⟨lst, total, h, st, resp', rfl, _, hfin, hfd, hloop, hfr⟩
  · simp only [M.bind_apply] at hs
    generalize recvLoop P cfg recv (retryTimeout resp.getTime cfg.recvTimeoutMs) b fuel 0 t0
      ⟨resp, ⟨P.init, .none, false, startsHead w.mem rb, none, none, 0, none, 0⟩⟩ ⟨s0, w.mem, w.log ++ [.time t0]⟩ = x at h1 h2 hs
    obtain ⟨x | f | _, v1⟩ := x
    · dsimp only at hs
      have hf := finishReceive_pair (p' := some b') cfg x.1 x.2.1 x.2.2 v1 v1
      rw [← hs] at hf
      obtain ⟨_, _, hf⟩ := hf
      obtain ⟨y | g | _, v1'⟩ := y <;> simp only [SimRun] at h2
      obtain ⟨rfl, rfl⟩ := h2
      have hf' := finishReceive_pair (p' := some b') cfg x.1 x.2.1 x.2.2 v1 v1'
      rw [← hs] at hf'
      obtain ⟨e1, e2, hf'⟩ := hf'
      dsimp only at e1 h1 ⊢
      subst e1
      exact ⟨x.2.1, by rw [e2]; exact h1, by revert hf'; generalize (finishReceive cfg x.1 x.2.1 (reb (some b') x.2.2) v1').1 = z; cases z <;> simp [SimRun]⟩
    · simp at hs
    · simp only [Prod.mk.injEq, true_and] at hs
      subst hs
      obtain ⟨y | g | _, v1'⟩ := y <;> simp only [SimRun] at h2
      exact ⟨k, h1, trivial⟩
  · rw [hloop] at h1 h2
    obtain ⟨y | g | _, v1'⟩ := y <;> simp only [SimRun] at h2
    obtain ⟨rfl, rfl⟩ := h2
    dsimp only at h1 ⊢
    have hf := finishReceive_pair (p' := some b') cfg lst k h v v1'
    rw [hfr] at hf
    obtain ⟨_, e2, hf⟩ := hf
    refine ⟨k, by rw [e2]; exact h1, ?_⟩
    revert hf
    generalize (finishReceive cfg lst k (reb (some b') h) v1').1 = z
    cases z with
    | ok z =>
      refine fun hf => ⟨hf, ?_, _, hlog, hfin.total⟩
      rcases returned hfin hfd with ⟨_, _, h3, _⟩ | ⟨ph, base, lo, ht, _, _, h3, _⟩
      · rw [h3]; exact hp.buf
      · have := ht.core.pbuf
        rw [hp.buf] at this
        rw [h3]
        split <;> exact this
    | _ => exact fun hf => hf.elim

/-- The same from one world. -/
theorem receive_pair {T : Transport σ} {recv : σ → Nat → Int × Bytes × σ} {resp : Resp σ} {rh : ReqHeaders} {rb : Nat} {w : World PLog σ}
    (hp : RecvPre strict P cfg T recv resp rh b rb w.mem) (hp' : RecvPre strict P cfg T recv { resp with pBuffer := some b' } rh b' rb w.mem)
    (hRF : RecvFills recv) (fuel : Nat) :
    ∃ k, WRel k resp.bufferLen b b' (HTTPClient_ReceiveAndParseHttpResponse P cfg fuel (some T) (some resp) (some rh) w).2
        (HTTPClient_ReceiveAndParseHttpResponse P cfg fuel (some T) (some { resp with pBuffer := some b' }) (some rh) w).2 ∧
      SimRun (fun x y => y = (x.1, { x.2 with pBuffer := some b' }) ∧ x.2.pBuffer = some b ∧
          ∃ evs, (HTTPClient_ReceiveAndParseHttpResponse P cfg fuel (some T) (some resp) (some rh) w).2.log = w.log ++ evs ∧ k = (received evs).length)
        (HTTPClient_ReceiveAndParseHttpResponse P cfg fuel (some T) (some resp) (some rh) w).1
        (HTTPClient_ReceiveAndParseHttpResponse P cfg fuel (some T) (some { resp with pBuffer := some b' }) (some rh) w).1 :=
  receive_pair₂ hp hp' rfl rfl rfl hRF fuel

end CoreHttp

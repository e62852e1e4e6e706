import Verif.Lemmas.InitIndep
import Verif.Props.Response
import Verif.Props.Receive
import Verif.Props.Residue

/-! # Property C100: a larger buffer never hurts -/

namespace CoreHttp
open Spec

/-- Two outcomes agree on everything visible; the second buffer is at least as large. -/
structure ReqLe (r1 r2 : ReqOut) (b1 b2 : Nat) : Prop where
  status : r1.status = r2.status
  hl : r1.hdrs.headersLen = r2.hdrs.headersLen
  bl : r1.hdrs.bufferLen ≤ r2.hdrs.bufferLen
  p1 : r1.hdrs.pBuffer = some b1
  p2 : r2.hdrs.pBuffer = some b2
  le : r1.hdrs.headersLen ≤ r1.hdrs.bufferLen
  real1 : r1.hdrs.bufferLen ≤ (r1.mem b1).length
  real2 : r2.hdrs.bufferLen ≤ (r2.mem b2).length
  eq : (r1.mem b1).take r1.hdrs.headersLen = (r2.mem b2).take r1.hdrs.headersLen

theorem addHeader_le {cfg : Cfg} {r1 r2 : ReqOut} {b1 b2 : Nat} {f v : Bytes} (R : ReqLe r1 r2 b1 b2) (hf : f ≠ []) (hv : v ≠ [])
    (hw : r2.hdrs.bufferLen + f.length + v.length + 6 < 2 ^ cfg.sizeBits) :
    ∃ s1 s2, addHeader cfg r1.mem r1.hdrs (some f) (some v) = .ok s1 ∧
      addHeader cfg r2.mem r2.hdrs (some f) (some v) = .ok s2 ∧ (s1.status ≠ .insufficientMemory → ReqLe s1 s2 b1 b2) ∧
      s2.hdrs.bufferLen = r2.hdrs.bufferLen := by
  obtain ⟨st1, h1, m1⟩ := r1
  obtain ⟨st2, h2, m2⟩ := r2
  obtain ⟨_, hhl, hbl, p1, p2, hle, hr1, hr2, heq⟩ := R
  dsimp only at *
  have hk : kept (m2 b2) h2.headersLen = kept (m1 b1) h1.headersLen := by
    unfold kept; rw [← hhl, heq]
  have hkl := kept_le (m1 b1) h1.headersLen
  rw [addHeader_eq p1 hf hv hle hr1 (by omega), addHeader_eq p2 hf hv (by omega) hr2 (by omega), hk]
  generalize kept (m1 b1) h1.headersLen = k at hkl
  have htw := takeWhile_length_le (p := okByte true) f
  have htv := takeWhile_length_le (p := okByte false) v
  by_cases c1 : h1.bufferLen < k + f.length + v.length + 6
  · rw [if_pos c1]
    by_cases c2 : h2.bufferLen < k + f.length + v.length + 6
    · rw [if_pos c2]
      exact ⟨_, _, rfl, rfl, fun h => absurd rfl h, rfl⟩
    · rw [if_neg c2]
      by_cases c3 : ¬ CleanField f
      · rw [if_pos c3]; exact ⟨_, _, rfl, rfl, fun h => absurd rfl h, rfl⟩
      · rw [if_neg c3]
        by_cases c4 : ¬ CleanValue v
        · rw [if_pos c4]; exact ⟨_, _, rfl, rfl, fun h => absurd rfl h, rfl⟩
        · rw [if_neg c4]; exact ⟨_, _, rfl, rfl, fun h => absurd rfl h, rfl⟩
  · rw [if_neg c1, if_neg (show ¬ h2.bufferLen < k + f.length + v.length + 6 by omega)]
    by_cases c2 : ¬ CleanField f
    · rw [if_pos c2, if_pos c2]
      refine ⟨_, _, rfl, rfl, fun _ => ⟨rfl, hhl, hbl, p1, p2, hle, ?_, ?_, ?_⟩, rfl⟩
      · simp only [Mem.set_same]; rw [splice_length (by omega)]; exact hr1
      · simp only [Mem.set_same]; rw [splice_length (by omega)]; exact hr2
      · simp only [Mem.set_same]; exact take_splice_congr heq hkl (by omega) (by omega)
    · rw [if_neg c2, if_neg c2]
      by_cases c3 : ¬ CleanValue v
      · rw [if_pos c3, if_pos c3]
        refine ⟨_, _, rfl, rfl, fun _ => ⟨rfl, hhl, hbl, p1, p2, hle, ?_, ?_, ?_⟩, rfl⟩
        · simp only [Mem.set_same]; rw [splice_length (by simp; omega)]; exact hr1
        · simp only [Mem.set_same]; rw [splice_length (by simp; omega)]; exact hr2
        · simp only [Mem.set_same]; exact take_splice_congr heq hkl (by omega) (by omega)
      · rw [if_neg c3, if_neg c3]
        have hl : (headerLine f v ++ crlf).length = f.length + v.length + 6 := by
          simp [headerLine_length]
        refine ⟨_, _, rfl, rfl, fun _ => ⟨rfl, rfl, hbl, p1, p2, by simp; omega, ?_, ?_, ?_⟩, rfl⟩
        · simp only [Mem.set_same]; rw [splice_length (by omega)]; exact hr1
        · simp only [Mem.set_same]; rw [splice_length (by omega)]; omega
        · simp only [Mem.set_same]
          rw [take_splice (by omega) (by omega), take_splice (by omega) (by omega)]
          congr 1
          have := congrArg (List.take k) heq
          rwa [List.take_take, List.take_take, Nat.min_eq_left hkl] at this

theorem addAll_le {cfg : Cfg} (hs : List (Bytes × Bytes)) :
    ∀ {r1 r2 : ReqOut} {b1 b2 : Nat} {s1 : ReqOut}, ReqLe r1 r2 b1 b2 → (∀ p ∈ hs, p.1 ≠ [] ∧ p.2 ≠ []) →
    (∀ p ∈ hs, r2.hdrs.bufferLen + p.1.length + p.2.length + 6 < 2 ^ cfg.sizeBits) →
    addAll cfg r1 hs = .ok s1 → s1.status ≠ .insufficientMemory →
    ∃ s2, addAll cfg r2 hs = .ok s2 ∧ ReqLe s1 s2 b1 b2 := by
  induction hs with
  | nil =>
    intro r1 r2 b1 b2 s1 R _ _ e _
    cases e
    exact ⟨r2, rfl, R⟩
  | cons p hs ih =>
    intro r1 r2 b1 b2 s1 R hne hw e hni
    obtain ⟨f, v⟩ := p
    by_cases hst : r1.status = .success
    · obtain ⟨t1, t2, e1, e2, R', hbl⟩ := addHeader_le R (hne (f, v) (by simp)).1 (hne (f, v) (by simp)).2 (hw (f, v) (by simp))
      have hst2 : r2.status = .success := R.status ▸ hst
      have e' : addAll cfg t1 hs = .ok s1 := by
        simp only [addAll, hst, if_true, e1, Run.ok_bind] at e; exact e
      have hti : t1.status ≠ .insufficientMemory := by
        intro h
        rw [addAll_stop _ _ _ (by rw [h]; decide)] at e'
        cases e'
        exact hni h
      obtain ⟨s2, f2, R''⟩ := ih (R' hti) (fun p hp => hne p (by simp [hp])) (by rw [hbl]; exact fun p hp => hw p (by simp [hp])) e' hni
      refine ⟨s2, ?_, R''⟩
      simp only [addAll, hst2, if_true, e2, Run.ok_bind]; exact f2
    · have hst2 : r2.status ≠ .success := R.status ▸ hst
      rw [addAll_stop _ _ _ hst] at e
      cases e
      exact ⟨r2, addAll_stop _ _ _ hst2, R⟩

theorem init_le {cfg : Cfg} {m1 m2 : Mem} {h1 h2 : ReqHeaders} {b1 b2 : Nat} {info : ReqInfo} {me ho : Bytes}
    (hb1 : h1.pBuffer = some b1) (hb2 : h2.pBuffer = some b2) (hbl : h1.bufferLen ≤ h2.bufferLen)
    (hm : info.pMethod = some me) (hh : info.pHost = some ho) (hme : me ≠ []) (hho : ho ≠ [])
    (hua : cfg.userAgent ≠ []) (hr1 : h1.bufferLen ≤ (m1 b1).length) (hr2 : h2.bufferLen ≤ (m2 b2).length)
    (hw : h2.bufferLen + (requestBlock (requestLine me (pathOrDefault info.pPath)) (initHeaders cfg info.reqFlags ho)).length
      < 2 ^ cfg.sizeBits) {st : Status} {h1' : ReqHeaders} {m1' : Mem}
    (e : HTTPClient_InitializeRequestHeaders cfg m1 (some h1) (some info) = .ok (st, some h1', m1')) (hni : st ≠ .insufficientMemory) :
    ∃ h2' m2', HTTPClient_InitializeRequestHeaders cfg m2 (some h2) (some info) = .ok (st, some h2', m2') ∧
      h1'.headersLen = h2'.headersLen ∧ headerBlock m1' h1' = headerBlock m2' h2' := by
  rw [init_eq hb1 hm hh hme hho, hm] at e
  rw [init_eq hb2 hm hh hme hho, hm]
  simp only [requestBlock, List.length_append, len_crlf] at hw
  rw [writeRequestLine_eq (h := { h1 with headersLen := 0 }) hb1 rfl hme hr1 (by omega)] at e
  rw [writeRequestLine_eq (h := { h2 with headersLen := 0 }) hb2 rfl hme hr2 (by omega)]
  generalize requestLine me (pathOrDefault info.pPath) = rl at hw e ⊢
  dsimp only at e ⊢
  have fin : ∀ r1 r2 : ReqOut, ReqLe r1 r2 b1 b2 → r2.hdrs.bufferLen = h2.bufferLen →
      (addAll cfg r1 (initHeaders cfg info.reqFlags ho) >>= fun r => Run.ok (r.status, some r.hdrs, r.mem)) = .ok (st, some h1', m1') →
      ∃ h2' m2',
      (addAll cfg r2 (initHeaders cfg info.reqFlags ho) >>= fun r => Run.ok (r.status, some r.hdrs, r.mem)) = .ok (st, some h2', m2') ∧
      h1'.headersLen = h2'.headersLen ∧ headerBlock m1' h1' = headerBlock m2' h2' := by
    intro r1 r2 R hl e
    cases hs1 : addAll cfg r1 (initHeaders cfg info.reqFlags ho) with
    | fault f => rw [hs1] at e; cases e
    | more => rw [hs1] at e; cases e
    | ok s1 =>
      rw [hs1] at e
      simp only [Run.ok_bind, Run.ok.injEq, Prod.mk.injEq, Option.some.injEq] at e
      obtain ⟨rfl, rfl, rfl⟩ := e
      obtain ⟨s2, e2, R'⟩ := addAll_le (initHeaders cfg info.reqFlags ho) R (initHeaders_nonempty hua hho) (by
        intro p hp
        have := headerLines_mem_length hp
        rw [hl]; omega) hs1 hni
      refine ⟨s2.hdrs, s2.mem, by rw [e2, R'.status]; rfl, R'.hl, ?_⟩
      simp only [headerBlock, R'.p1, R'.p2, ← R'.hl]
      exact R'.eq
  by_cases hfit : h1.bufferLen < rl.length
  · exfalso
    rw [if_pos hfit] at e
    simp only [Run.ok_bind] at e
    rw [addAll_stop _ _ _ (show Status.insufficientMemory ≠ .success by decide)] at e
    simp only [Run.ok_bind, Run.ok.injEq, Prod.mk.injEq] at e
    exact hni e.1.symm
  · rw [if_neg hfit] at e
    rw [if_neg (show ¬ h2.bufferLen < rl.length by omega)]
    simp only [Run.ok_bind] at e ⊢
    refine fin _ _ (ReqLe.mk (r1 := ⟨.success, { h1 with headersLen := rl.length }, m1.set b1 (splice (m1 b1) 0 rl)⟩) rfl rfl hbl hb1 hb2 (by simpa using hfit) ?_ ?_ ?_) rfl e
    · simp only [Mem.set_same]; rw [splice_length (by omega)]; exact hr1
    · simp only [Mem.set_same]; rw [splice_length (by omega)]; omega
    · simp only [Mem.set_same]; rw [take_splice (by omega) (by omega), take_splice (by omega) (by omega)]; simp

end CoreHttp

namespace CoreHttp.Props
open CoreHttp Spec

/-- What holds of two calls when the smaller buffer is large enough: the object with the larger buffer comes to the same. -/
def BuildLarger (cfg : Cfg) (m' : Mem) (h h1 : ReqHeaders) (m1 : Mem) (b' L : Nat) (op : BuildOp) (st : Status) : Prop :=
  ∃ m1', runBuildOp cfg m' ⟨some b', L, h.headersLen⟩ op = .ok (st, some ⟨some b', L, h1.headersLen⟩, m1') ∧
    headerBlock m1' ⟨some b', L, h1.headersLen⟩ = headerBlock m1 h1 ∧ FrameBuf m' m1' b' L

theorem runBuildOp_larger {cfg : Cfg} {m m' : Mem} {h h1 : ReqHeaders} {m1 : Mem} {b b' L : Nat} {op : BuildOp} {st : Status} (hua : cfg.userAgent ≠ [])
    (hb : h.pBuffer = some b) (hroom : h.bufferLen ≤ (m b).length) (hle : h.headersLen ≤ h.bufferLen) (hL : h.bufferLen ≤ L) (hroom' : L ≤ (m' b').length)
    (heq : headerBlock m' ⟨some b', L, h.headersLen⟩ = headerBlock m h) (hok : OpOk cfg L op)
    (e : runBuildOp cfg m h op = .ok (st, some h1, m1)) (hni : st ≠ .insufficientMemory) : BuildLarger cfg m' h h1 m1 b' L op st := by
  obtain ⟨st', h1', m1', e1', p1', l1', _, f1', _, i1', _⟩ := runBuildOp_spec (m := m') (h := ⟨some b', L, h.headersLen⟩) (b := b') (op := op) hua rfl hroom' hok
  have fin : st' = st → h1'.headersLen = h1.headersLen → headerBlock m1' h1' = headerBlock m1 h1 → BuildLarger cfg m' h h1 m1 b' L op st := fun q1 q2 q3 => (by
    have hh : h1' = ⟨some b', L, h1.headersLen⟩ := by
      cases h1'; simp_all
    subst hh
    subst q1
    exact ⟨m1', e1', q3, f1'⟩)
  have inv : runBuildOp cfg m h op = .ok (.invalidParameter, some h, m) →
      runBuildOp cfg m' ⟨some b', L, h.headersLen⟩ op = .ok (.invalidParameter, some ⟨some b', L, h.headersLen⟩, m') → BuildLarger cfg m' h h1 m1 b' L op st :=
    fun g g' => (by
      rw [g] at e; rw [g'] at e1'
      simp only [Run.ok.injEq, Prod.mk.injEq, Option.some.injEq] at e e1'
      obtain ⟨rfl, rfl, rfl⟩ := e
      obtain ⟨rfl, rfl, rfl⟩ := e1'
      exact fin rfl rfl heq)
  have add : ∀ f v : Bytes, f ≠ [] → v ≠ [] → L + f.length + v.length + 6 < 2 ^ cfg.sizeBits →
      runBuildOp cfg m h op = (addHeader cfg m h (some f) (some v) >>= fun r => Run.ok (r.status, some r.hdrs, r.mem)) →
      runBuildOp cfg m' ⟨some b', L, h.headersLen⟩ op =
        (addHeader cfg m' ⟨some b', L, h.headersLen⟩ (some f) (some v) >>= fun r => Run.ok (r.status, some r.hdrs, r.mem)) → BuildLarger cfg m' h h1 m1 b' L op st :=
    fun f v hf hv hw g g' => (by
      have R : ReqLe ⟨.success, h, m⟩ ⟨.success, ⟨some b', L, h.headersLen⟩, m'⟩ b b' :=
        ⟨rfl, rfl, hL, hb, rfl, hle, hroom, hroom', by simpa [headerBlock, hb] using heq.symm⟩
      obtain ⟨s1, s2, a1, a2, R', _⟩ := addHeader_le R hf hv hw
      dsimp only at a1 a2
      rw [a1] at g; rw [a2] at g'
      rw [g] at e; rw [g'] at e1'
      simp only [Run.ok_bind, Run.ok.injEq, Prod.mk.injEq, Option.some.injEq] at e e1'
      obtain ⟨rfl, rfl, rfl⟩ := e
      obtain ⟨rfl, rfl, rfl⟩ := e1'
      have R'' := R' hni
      refine fin R''.status.symm R''.hl.symm ?_
      simp only [headerBlock, R''.p1, R''.p2, ← R''.hl]
      exact R''.eq.symm)
  cases op with
  | init info =>
    rcases info with _ | ⟨me, p, ho, fl⟩
    · exact inv (by simp [runBuildOp, HTTPClient_InitializeRequestHeaders, hb]) (by simp [runBuildOp, HTTPClient_InitializeRequestHeaders])
    · rcases me with _ | me
      · exact inv (by simp [runBuildOp, HTTPClient_InitializeRequestHeaders, hb]) (by simp [runBuildOp, HTTPClient_InitializeRequestHeaders])
      · rcases ho with _ | ho
        · exact inv (by simp [runBuildOp, HTTPClient_InitializeRequestHeaders, hb]) (by simp [runBuildOp, HTTPClient_InitializeRequestHeaders])
        · by_cases hme : me = []
          · exact inv (by simp [runBuildOp, HTTPClient_InitializeRequestHeaders, hb, hme]) (by simp [runBuildOp, HTTPClient_InitializeRequestHeaders, hme])
          · by_cases hho : ho = []
            · exact inv (by simp [runBuildOp, HTTPClient_InitializeRequestHeaders, hb, hme, hho])
                (by simp [runBuildOp, HTTPClient_InitializeRequestHeaders, hme, hho])
            · simp only [runBuildOp] at e e1'
              obtain ⟨a2, n2, g2, q1, q2⟩ := init_le (cfg := cfg) (m1 := m) (m2 := m') (h1 := h) (h2 := ⟨some b', L, h.headersLen⟩)
                (info := ⟨some me, p, some ho, fl⟩) hb rfl hL rfl rfl hme hho hua hroom hroom' (by
                  have := hok.1
                  simp only [opSize] at this
                  rw [initHeaders_eq, effectivePath_eq]
                  dsimp only
                  omega) e hni
              rw [g2] at e1'
              simp only [Run.ok.injEq, Prod.mk.injEq, Option.some.injEq] at e1'
              obtain ⟨rfl, rfl, rfl⟩ := e1'
              exact fin rfl q1.symm q2.symm
  | addHeader f v =>
    rcases f with _ | f
    · exact inv (by simp [runBuildOp, HTTPClient_AddHeader, hb]) (by simp [runBuildOp, HTTPClient_AddHeader])
    · rcases v with _ | v
      · exact inv (by simp [runBuildOp, HTTPClient_AddHeader, hb]) (by simp [runBuildOp, HTTPClient_AddHeader])
      · by_cases hf : f = []
        · exact inv (by simp [runBuildOp, HTTPClient_AddHeader, hb, hf]) (by simp [runBuildOp, HTTPClient_AddHeader, hf])
        · by_cases hv : v = []
          · exact inv (by simp [runBuildOp, HTTPClient_AddHeader, hb, hf, hv]) (by simp [runBuildOp, HTTPClient_AddHeader, hf, hv])
          · exact add f v hf hv (by have := hok.1; simp only [opSize] at this; omega)
              (by simp only [runBuildOp]; rw [addHeader_api hb hf hv hle])
              (by simp only [runBuildOp]; rw [addHeader_api (h := ⟨some b', L, h.headersLen⟩) (b := b') rfl hf hv (by dsimp only; omega)])
  | addRange x y =>
    obtain ⟨hsz, hs32, he32⟩ := hok
    by_cases hv : ValidRange x y
    · obtain ⟨hrl, hrne⟩ := rangeText_length hs32 he32 hv
      have hr5 : RANGE_FIELD.length = 5 := by decide
      exact add RANGE_FIELD (rangeText (requestedRange x y)) (by decide) hrne (by simp only [opSize] at hsz; omega)
        (by simp only [runBuildOp]; rw [addRange_api hs32 he32 hb hle, if_pos hv])
        (by simp only [runBuildOp]; rw [addRange_api (h := ⟨some b', L, h.headersLen⟩) (b := b') hs32 he32 rfl (by dsimp only; omega), if_pos hv])
    · exact inv (by simp only [runBuildOp]; rw [addRange_api hs32 he32 hb hle, if_neg hv])
        (by simp only [runBuildOp]; rw [addRange_api (h := ⟨some b', L, h.headersLen⟩) (b := b') hs32 he32 rfl (by dsimp only; omega), if_neg hv])

/-- **C100** (building). A history of building calls none of which reported HTTPInsufficientMemory: with a larger buffer (in any memory), every call returns the
same status and the header block is the same. -/
theorem C100_build {cfg : Cfg} (hua : cfg.userAgent ≠ []) (ops : List BuildOp) :
    ∀ {m m' : Mem} {h h1 : ReqHeaders} {m1 : Mem} {b b' L : Nat} {sts : List Status}, HasBuf m h b → h.headersLen ≤ h.bufferLen → h.bufferLen ≤ L → L ≤ (m' b').length →
    headerBlock m' ⟨some b', L, h.headersLen⟩ = headerBlock m h → (∀ op ∈ ops, OpOk cfg L op) →
    runBuildOps cfg m h ops = .ok (sts, h1, m1) → .insufficientMemory ∉ sts →
    ∃ m1', runBuildOps cfg m' ⟨some b', L, h.headersLen⟩ ops = .ok (sts, ⟨some b', L, h1.headersLen⟩, m1') ∧
      headerBlock m1' ⟨some b', L, h1.headersLen⟩ = headerBlock m1 h1 := by
  induction ops with
  | nil =>
    intro m m' h h1 m1 b b' L sts _ _ _ _ heq _ e _
    simp only [runBuildOps, Run.ok.injEq, Prod.mk.injEq] at e
    obtain ⟨rfl, rfl, rfl⟩ := e
    exact ⟨m', rfl, heq⟩
  | cons op ops ih =>
    intro m m' h h1 m1 b b' L sts hb hle hL hr heq hok e hni
    have hok1 : OpOk cfg h.bufferLen op := by
      have := hok op (by simp)
      exact ⟨by have := this.1; omega, this.2⟩
    obtain ⟨st, h2, m2, e2, p2, l2, le2, f2, _⟩ := runBuildOp_spec (op := op) hua hb.1 hb.2 hok1
    simp only [runBuildOps, e2, Run.ok_bind] at e
    cases hr2 : runBuildOps cfg m2 h2 ops with
    | fault f => rw [hr2] at e; cases e
    | more => rw [hr2] at e; cases e
    | ok x =>
      obtain ⟨sts', h3, m3⟩ := x
      rw [hr2] at e
      simp only [Run.ok_bind, Run.ok.injEq, Prod.mk.injEq] at e
      obtain ⟨rfl, rfl, rfl⟩ := e
      obtain ⟨m2', g, g1, g2⟩ := runBuildOp_larger hua hb.1 hb.2 hle hL hr heq (hok op (by simp)) e2 (fun h => hni (by simp [h]))
      obtain ⟨m3', g3, g4⟩ := ih (m := m2) (m' := m2') (h := h2) (b := b) (b' := b') ⟨p2, by rw [l2, f2.2.1]; exact hb.2⟩ (le2 hle) (by rw [l2]; exact hL)
        (by rw [g2.2.1]; exact hr) g1 (fun o ho => hok o (by simp [ho])) hr2 (fun h => hni (by simp [h]))
      exact ⟨m3', by simp only [runBuildOps, g, Run.ok_bind, g3], g4⟩

variable {P : Parser} {cfg : Cfg} {strict : Bool}

/-- **C100** (receiving). Two calls for the same request that receive the same bytes, the second into a buffer at least as large. The status is the same, but
that HTTPInsufficientMemory, for the smaller buffer being full, may become HTTPPartialResponse; and unless it is an error, so is all that is reported. -/
theorem C100_receive {σ₁ σ₂ : Type} {T₁ : Transport σ₁} {T₂ : Transport σ₂} {recv₁ recv₂} {resp₁ resp₁' : Resp σ₁}
    {resp₂ resp₂' : Resp σ₂} {rh₁ rh₂ : ReqHeaders} {b₁ b₂ rb₁ rb₂ : Nat} {w₁ w₁' : World PLog σ₁} {w₂ w₂' : World PLog σ₂}
    {st₁ st₂ : Status} {evs₁ evs₂ : List (Ev PLog)} {fuel₁ fuel₂ : Nat} (hcf : ChunkFree P)
    (hp₁ : RecvPre strict P cfg T₁ recv₁ resp₁ rh₁ b₁ rb₁ w₁.mem) (hp₂ : RecvPre strict P cfg T₂ recv₂ resp₂ rh₂ b₂ rb₂ w₂.mem)
    (e₁ : HTTPClient_ReceiveAndParseHttpResponse P cfg fuel₁ (some T₁) (some resp₁) (some rh₁) w₁ = (.ok (st₁, resp₁'), w₁'))
    (e₂ : HTTPClient_ReceiveAndParseHttpResponse P cfg fuel₂ (some T₂) (some resp₂) (some rh₂) w₂ = (.ok (st₂, resp₂'), w₂'))
    (hl₁ : w₁'.log = w₁.log ++ evs₁) (hl₂ : w₂'.log = w₂.log ++ evs₂)
    (hreq : headerBlock w₁.mem rh₁ = headerBlock w₂.mem rh₂) (hopt : resp₁.respOptionFlags = resp₂.respOptionFlags)
    (hle : resp₁.bufferLen ≤ resp₂.bufferLen) (hne₁ : st₁ ≠ .networkError) (hne₂ : st₂ ≠ .networkError)
    (hrecv : received evs₁ = received evs₂) :
    (st₁ = st₂ ∨ (st₁ = .insufficientMemory ∧ st₂ = .partialResponse)) ∧
    (noAlert st₁ → resp₁'.statusCode = resp₂'.statusCode ∧ resp₁'.headerCount = resp₂'.headerCount ∧ resp₁'.respFlags = resp₂'.respFlags ∧
      bodyBytes w₁'.mem resp₁' = bodyBytes w₂'.mem resp₂' ∧
      (strict = true → resp₁.pHeaderParsingCallback.isSome → resp₂.pHeaderParsingCallback.isSome → reported evs₁ = reported evs₂)) := by
  obtain ⟨h1, h2⟩ := same_received hcf hp₁ hp₂ e₁ e₂ hl₁ hl₂ hreq hopt hne₁ hne₂ hrecv
  refine ⟨?_, fun h => ⟨(h2 h).1, (h2 h).2.1, (h2 h).2.2.1, (h2 h).2.2.2.1, (h2 h).2.2.2.2.1⟩⟩
  rcases h1 with h | ⟨h3, h4, _⟩ | ⟨h3, h4, h5, h6⟩
  · exact .inl h
  · exact .inr ⟨h3, h4⟩
  · exfalso
    obtain ⟨r, w, evs, g1, g2, _, g3⟩ := C29_receive_contiguous hp₁ fuel₁
    rw [e₁] at g1; cases g1
    obtain rfl : evs₁ = evs := List.append_cancel_left (hl₁.symm.trans g2)
    omega

/-- **C100** (HTTPClient_Send). A request that can be sent from its buffer (that is, a Content-Length header to be added fits): with a larger request buffer
(and whatever in the rest of memory) the call does and returns the same. -/
theorem C100_send {σ : Type} {T : Transport σ} {send : σ → Bytes → Int × σ} {recv : σ → Nat → Int × Bytes × σ} {resp : Resp σ} {rh : ReqHeaders}
    {b b' rb : Nat} {body : Option Nat} {n : Nat} {flags : UInt32} {L : Nat} {s : σ} {m m' : Mem} {log : List (Ev PLog)}
    (hp : CallPre strict P cfg T send recv rh rb body n resp b m)
    (hp' : CallPre strict P cfg T send recv { rh with bufferLen := L } rb body n { resp with pBuffer := some b' } b' m') (hL : rh.bufferLen ≤ L)
    (hfit : (wireHeaders (headerBlock m rh) n flags.toNat).length ≤ rh.bufferLen)
    (hreq : headerBlock m' rh = headerBlock m rh) (hbody : bodyOf m' body n = bodyOf m body n) (hf : RecvFills recv) (fuel : Nat) :
    ∃ r w₁ evs r' w₂ evs', HTTPClient_Send P cfg fuel (some T) (some rh) body n (some resp) flags ⟨s, m, log⟩ = (r, w₁) ∧ w₁.log = log ++ evs ∧
      HTTPClient_Send P cfg fuel (some T) (some { rh with bufferLen := L }) body n (some { resp with pBuffer := some b' }) flags ⟨s, m', log⟩ = (r', w₂) ∧
      w₂.log = log ++ evs' ∧ observable evs' = observable evs ∧ w₂.env = w₁.env ∧
      ((r = .more ∧ r' = .more) ∨
        ∃ st rh' q, r = .ok (st, some rh', some q) ∧ r' = .ok (st, some { rh' with bufferLen := L }, some { q with pBuffer := some b' }) ∧
          (w₂.mem b').take (received evs).length = (w₁.mem b).take (received evs).length ∧
          (recvs evs ≠ [] → st ≠ .networkError ∨ obsOf evs ≠ [] → bodyBytes w₂.mem { q with pBuffer := some b' } = bodyBytes w₁.mem q)) := by
  obtain ⟨r, w₁, evs, r', w₂, evs', e1, e2, e3, e4, e5, e6, h⟩ := send_pair (L := L) hp hp' ⟨fun _ => Nat.le_trans hfit hL, fun _ => hfit⟩ hreq hbody hf fuel
  refine ⟨r, w₁, evs, r', w₂, evs', e1, e2, e3, e4, e5, e6, h.imp id ?_⟩
  rintro ⟨st, rh', q, h1, h2, _, h4, h5, _⟩
  exact ⟨st, rh', q, h1, h2, h4, h5⟩

/-! ### Non-vacuity -/

/-- A history in which nothing is too long for 120 bytes; with 40 bytes the first call fails. -/
example : let h : ReqHeaders := ⟨some 0, 120, 0⟩
    let m : Mem := fun _ => List.replicate 300 0
    let ops : List BuildOp := [.init (some ⟨some (ascii "GET"), none, some (ascii "h"), 0⟩), .addHeader (some (ascii "A")) (some (ascii "1")), .addHeader (some (ascii "B:")) (some (ascii "2")),
      .addRange 5 9]
    (match runBuildOps ⟨32, ascii "u", 10, 10⟩ m h ops with | .ok (sts, h1, _) => (sts, h1.headersLen) | _ => ([], 0)) =
      ([.success, .success, .invalidCharacter, .success], 68) ∧
    (match runBuildOps ⟨32, ascii "u", 10, 10⟩ m ⟨some 0, 40, 0⟩ ops with | .ok (sts, _, _) => sts | _ => []) =
      [.insufficientMemory, .success, .insufficientMemory, .insufficientMemory] := by decide +kernel

/-- A response cut off after 39 bytes, received into a buffer of 39 bytes and into one of 200: the one difference. -/
example : (seen (exRun exGet 39 0 [ascii "HTTP/1.1 200 OK\r\nContent-Length: 5\r\n\r\na"])).map (fun s => (s.st, s.body)) = some (.insufficientMemory, ascii "a") ∧
    (seen (exRun exGet 200 0 [ascii "HTTP/1.1 200 OK\r\nContent-Length: 5\r\n\r\na"])).map (fun s => (s.st, s.body)) = some (.partialResponse, ascii "a") := by decide +kernel

end CoreHttp.Props

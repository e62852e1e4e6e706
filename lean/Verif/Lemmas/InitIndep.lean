import Verif.Lemmas.RequestHistory

/-! Initialisation does not depend on earlier contents. -/

namespace CoreHttp
open Spec

theorem take_splice_congr {x y : Bytes} {n k : Nat} {bs : Bytes} (h : x.take n = y.take n) (hk : k ≤ n)
    (_ : n ≤ x.length) (hy : n ≤ y.length) : (splice x k bs).take n = (splice y k bs).take n := by
  have hk' : x.take k = y.take k := by
    have := congrArg (List.take k) h
    rwa [List.take_take, List.take_take, Nat.min_eq_left hk] at this
  have hd : (x.drop (k + bs.length)).take (n - (k + bs.length)) = (y.drop (k + bs.length)).take (n - (k + bs.length)) := by
    rw [← List.drop_take, ← List.drop_take, h]
  unfold splice
  have e2 : (y.take k ++ bs).length = k + bs.length := by simp; omega
  rw [hk', List.take_append (l₁ := y.take k ++ bs), List.take_append (l₁ := y.take k ++ bs), e2, hd]

/-- Two outcomes agree on everything visible. -/
structure ReqRel (cfg : Cfg) (r1 r2 : ReqOut) (b1 b2 : Nat) : Prop where
  status : r1.status = r2.status
  hl : r1.hdrs.headersLen = r2.hdrs.headersLen
  bl : r1.hdrs.bufferLen = r2.hdrs.bufferLen
  p1 : r1.hdrs.pBuffer = some b1
  p2 : r2.hdrs.pBuffer = some b2
  le : r1.hdrs.headersLen ≤ r1.hdrs.bufferLen
  real1 : r1.hdrs.bufferLen ≤ (r1.mem b1).length
  real2 : r2.hdrs.bufferLen ≤ (r2.mem b2).length
  eq : (r1.mem b1).take r1.hdrs.headersLen = (r2.mem b2).take r1.hdrs.headersLen

theorem addHeader_rel {cfg : Cfg} {r1 r2 : ReqOut} {b1 b2 : Nat} {f v : Bytes} (R : ReqRel cfg r1 r2 b1 b2) (hf : f ≠ []) (hv : v ≠ [])
    (hw : r1.hdrs.bufferLen + f.length + v.length + 6 < 2 ^ cfg.sizeBits) :
    ∃ s1 s2, addHeader cfg r1.mem r1.hdrs (some f) (some v) = .ok s1 ∧
      addHeader cfg r2.mem r2.hdrs (some f) (some v) = .ok s2 ∧ ReqRel cfg s1 s2 b1 b2 ∧
      s1.hdrs.bufferLen = r1.hdrs.bufferLen := by
  obtain ⟨st1, h1, m1⟩ := r1
  obtain ⟨st2, h2, m2⟩ := r2
  obtain ⟨_, hhl, hbl, p1, p2, hle, hr1, hr2, heq⟩ := R
  dsimp only at *
  have hk : kept (m2 b2) h2.headersLen = kept (m1 b1) h1.headersLen := by
    unfold kept; rw [← hhl, heq]
  have hkl := kept_le (m1 b1) h1.headersLen
  rw [addHeader_eq p1 hf hv hle hr1 (by omega), addHeader_eq p2 hf hv (by omega) hr2 (by omega), hk, ← hbl]
  generalize kept (m1 b1) h1.headersLen = k at hkl
  have htw := takeWhile_length_le (p := okByte true) f
  have htv := takeWhile_length_le (p := okByte false) v
  by_cases c1 : h1.bufferLen < k + f.length + v.length + 6
  · rw [if_pos c1, if_pos c1]
    exact ⟨_, _, rfl, rfl, ⟨rfl, hhl, hbl, p1, p2, hle, hr1, hr2, heq⟩, rfl⟩
  · rw [if_neg c1, if_neg c1]
    by_cases c2 : ¬ CleanField f
    · rw [if_pos c2, if_pos c2]
      refine ⟨_, _, rfl, rfl, ⟨rfl, hhl, hbl, p1, p2, hle, ?_, ?_, ?_⟩, rfl⟩
      · simp only [Mem.set_same]; rw [splice_length (by omega)]; exact hr1
      · simp only [Mem.set_same]; rw [splice_length (by omega)]; exact hr2
      · simp only [Mem.set_same]; exact take_splice_congr heq hkl (by omega) (by omega)
    · rw [if_neg c2, if_neg c2]
      by_cases c3 : ¬ CleanValue v
      · rw [if_pos c3, if_pos c3]
        refine ⟨_, _, rfl, rfl, ⟨rfl, hhl, hbl, p1, p2, hle, ?_, ?_, ?_⟩, rfl⟩
        · simp only [Mem.set_same]; rw [splice_length (by simp; omega)]; exact hr1
        · simp only [Mem.set_same]; rw [splice_length (by simp; omega)]; exact hr2
        · simp only [Mem.set_same]; exact take_splice_congr heq hkl (by omega) (by omega)
      · rw [if_neg c3, if_neg c3]
        have hl : (headerLine f v ++ crlf).length = f.length + v.length + 6 := by
          simp [headerLine_length]
        refine ⟨_, _, rfl, rfl, ⟨rfl, rfl, rfl, p1, p2, by simp; omega, ?_, ?_, ?_⟩, rfl⟩
        · simp only [Mem.set_same]; rw [splice_length (by omega)]; exact hr1
        · simp only [Mem.set_same]; rw [splice_length (by omega)]; omega
        · simp only [Mem.set_same]
          rw [take_splice (by omega) (by omega), take_splice (by omega) (by omega)]
          congr 1
          have := congrArg (List.take k) heq
          rwa [List.take_take, List.take_take, Nat.min_eq_left hkl] at this

theorem addAll_rel {cfg : Cfg} (hs : List (Bytes × Bytes)) :
    ∀ {r1 r2 : ReqOut} {b1 b2 : Nat}, ReqRel cfg r1 r2 b1 b2 → (∀ p ∈ hs, p.1 ≠ [] ∧ p.2 ≠ []) →
    (∀ p ∈ hs, r1.hdrs.bufferLen + p.1.length + p.2.length + 6 < 2 ^ cfg.sizeBits) →
    ∃ s1 s2, addAll cfg r1 hs = .ok s1 ∧ addAll cfg r2 hs = .ok s2 ∧ ReqRel cfg s1 s2 b1 b2 := by
  induction hs with
  | nil => intro r1 r2 b1 b2 R _ _; exact ⟨r1, r2, rfl, rfl, R⟩
  | cons p hs ih =>
    intro r1 r2 b1 b2 R hne hw
    obtain ⟨f, v⟩ := p
    by_cases hst : r1.status = .success
    · obtain ⟨s1, s2, e1, e2, R', hbl⟩ := addHeader_rel R (hne (f, v) (by simp)).1 (hne (f, v) (by simp)).2 (hw (f, v) (by simp))
      have hst2 : r2.status = .success := R.status ▸ hst
      obtain ⟨t1, t2, f1, f2, R''⟩ := ih R' (fun p hp => hne p (by simp [hp])) (by rw [hbl]; exact fun p hp => hw p (by simp [hp]))
      refine ⟨t1, t2, ?_, ?_, R''⟩
      · simp only [addAll, hst, if_true, e1, Run.ok_bind]; exact f1
      · simp only [addAll, hst2, if_true, e2, Run.ok_bind]; exact f2
    · have hst2 : r2.status ≠ .success := R.status ▸ hst
      exact ⟨r1, r2, addAll_stop _ _ _ hst, addAll_stop _ _ _ hst2, R⟩

theorem headerLines_mem_length {hs : List (Bytes × Bytes)} {p : Bytes × Bytes} (h : p ∈ hs) :
    p.1.length + p.2.length + 4 ≤ (headerLines hs).length := by
  induction hs with
  | nil => simp at h
  | cons q hs ih =>
    obtain ⟨f, v⟩ := q
    rw [headerLines_cons, List.length_append, headerLine_length]
    rcases List.mem_cons.mp h with rfl | h
    · simp
    · have := ih h; omega

theorem initHeaders_nonempty {cfg : Cfg} {fl : UInt32} {ho : Bytes} (hua : cfg.userAgent ≠ []) (hho : ho ≠ []) :
    ∀ p ∈ initHeaders cfg fl ho, p.1 ≠ [] ∧ p.2 ≠ [] := by
  intro p hp
  simp only [initHeaders, List.mem_append] at hp
  rcases hp with hp | hp | hp
  · split at hp
    · simp at hp; subst hp; exact ⟨show USER_AGENT_FIELD ≠ [] by decide, hua⟩
    · simp at hp
  · simp at hp; subst hp; exact ⟨show HOST_FIELD ≠ [] by decide, hho⟩
  · split at hp
    · simp at hp; subst hp; exact ⟨by decide, by decide⟩
    · simp at hp

theorem init_indep {cfg : Cfg} {m1 m2 : Mem} {h1 h2 : ReqHeaders} {b1 b2 : Nat} {info : ReqInfo} {me ho : Bytes}
    (hb1 : h1.pBuffer = some b1) (hb2 : h2.pBuffer = some b2) (hbl : h1.bufferLen = h2.bufferLen)
    (hm : info.pMethod = some me) (hh : info.pHost = some ho) (hme : me ≠ []) (hho : ho ≠ [])
    (hua : cfg.userAgent ≠ []) (hr1 : h1.bufferLen ≤ (m1 b1).length) (hr2 : h2.bufferLen ≤ (m2 b2).length)
    (hw : h1.bufferLen + (requestBlock (requestLine me (pathOrDefault info.pPath)) (initHeaders cfg info.reqFlags ho)).length
      < 2 ^ cfg.sizeBits) :
    ∃ st h1' h2' m1' m2',
      HTTPClient_InitializeRequestHeaders cfg m1 (some h1) (some info) = .ok (st, some h1', m1') ∧
      HTTPClient_InitializeRequestHeaders cfg m2 (some h2) (some info) = .ok (st, some h2', m2') ∧
      h1'.headersLen = h2'.headersLen ∧ headerBlock m1' h1' = headerBlock m2' h2' := by
  rw [init_eq hb1 hm hh hme hho, init_eq hb2 hm hh hme hho, hm]
  simp only [requestBlock, List.length_append, len_crlf] at hw
  rw [writeRequestLine_eq (h := { h1 with headersLen := 0 }) hb1 rfl hme hr1 (by omega),
    writeRequestLine_eq (h := { h2 with headersLen := 0 }) hb2 rfl hme hr2 (by omega)]
  generalize requestLine me (pathOrDefault info.pPath) = rl at hw ⊢
  dsimp only
  have fin : ∀ r1 r2 : ReqOut, ReqRel cfg r1 r2 b1 b2 → r1.hdrs.bufferLen = h1.bufferLen →
      ∃ st h1' h2' m1' m2',
      (addAll cfg r1 (initHeaders cfg info.reqFlags ho) >>= fun r => Run.ok (r.status, some r.hdrs, r.mem)) = .ok (st, some h1', m1') ∧
      (addAll cfg r2 (initHeaders cfg info.reqFlags ho) >>= fun r => Run.ok (r.status, some r.hdrs, r.mem)) = .ok (st, some h2', m2') ∧
      h1'.headersLen = h2'.headersLen ∧ headerBlock m1' h1' = headerBlock m2' h2' := by
    intro r1 r2 R hl
    obtain ⟨s1, s2, e1, e2, R'⟩ := addAll_rel (initHeaders cfg info.reqFlags ho) R (initHeaders_nonempty hua hho) (by
      intro p hp
      have := headerLines_mem_length hp
      rw [hl]; omega)
    refine ⟨s1.status, s1.hdrs, s2.hdrs, s1.mem, s2.mem, by rw [e1]; rfl, by rw [e2, R'.status]; rfl, R'.hl, ?_⟩
    simp only [headerBlock, R'.p1, R'.p2, ← R'.hl]
    exact R'.eq
  rw [← hbl]
  by_cases hfit : h1.bufferLen < rl.length
  · rw [if_pos hfit, if_pos hfit]
    simp only [Run.ok_bind]
    exact fin _ _ ⟨rfl, rfl, rfl, hb1, hb2, by simp, hr1, by dsimp only; omega, by simp⟩ rfl
  · rw [if_neg hfit, if_neg hfit]
    simp only [Run.ok_bind]
    refine fin _ _ ⟨rfl, rfl, rfl, hb1, hb2, by simpa using hfit, ?_, ?_, ?_⟩ rfl
    · simp only [Mem.set_same]; rw [splice_length (by omega)]; exact hr1
    · simp only [Mem.set_same]; rw [splice_length (by omega)]; omega
    · simp only [Mem.set_same]; rw [take_splice (by omega) (by omega), take_splice (by omega) (by omega)]; simp

end CoreHttp

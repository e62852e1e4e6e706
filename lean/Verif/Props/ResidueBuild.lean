import Verif.Lemmas.InitIndep

/-! # Property C99: building a request does not depend on what else is in memory -/

namespace CoreHttp.Props
open CoreHttp Spec

/-- What two such calls come to. -/
def BuildPair (cfg : Cfg) (m m' : Mem) (h : ReqHeaders) (b b' : Nat) (op : BuildOp) : Prop :=
    ∃ st h1 m1 m1', runBuildOp cfg m h op = .ok (st, some h1, m1) ∧
      runBuildOp cfg m' { h with pBuffer := some b' } op = .ok (st, some { h1 with pBuffer := some b' }, m1') ∧
      h1.pBuffer = some b ∧ h1.bufferLen = h.bufferLen ∧ FrameBuf m m1 b h.bufferLen ∧ FrameBuf m' m1' b' h.bufferLen ∧
      headerBlock m1' { h1 with pBuffer := some b' } = headerBlock m1 h1

/-- One building call on request objects in different blocks with the same header block. -/
theorem runBuildOp_pair {cfg : Cfg} {m m' : Mem} {h : ReqHeaders} {b b' : Nat} {op : BuildOp} (hua : cfg.userAgent ≠ []) (hb : h.pBuffer = some b)
    (hroom : h.bufferLen ≤ (m b).length) (hroom' : h.bufferLen ≤ (m' b').length)
    (heq : headerBlock m' { h with pBuffer := some b' } = headerBlock m h) (hok : OpOk cfg h.bufferLen op) :
    BuildPair cfg m m' h b b' op := by
  obtain ⟨st, h1, m1, e1, p1, l1, _, f1, _, i1, _⟩ := runBuildOp_spec (op := op) hua hb hroom hok
  obtain ⟨st', h1', m1', e1', p1', l1', _, f1', _, i1', _⟩ := runBuildOp_spec (m := m') (h := { h with pBuffer := some b' }) (b := b') (op := op) hua rfl hroom' hok
  -- it is enough to have the status, the length and the block
  have fin : st' = st → h1'.headersLen = h1.headersLen → headerBlock m1' h1' = headerBlock m1 h1 → BuildPair cfg m m' h b b' op := fun q1 q2 q3 =>
    (by
      have hh : h1' = { h1 with pBuffer := some b' } := by
        have q5 : h1'.bufferLen = h1.bufferLen := by rw [l1', l1]
        cases h1; cases h1'; simp_all
      subst hh
      subst q1
      exact ⟨st', h1, m1, m1', e1, e1', p1, l1, f1, f1', q3⟩)
  have inv : runBuildOp cfg m h op = .ok (.invalidParameter, some h, m) →
      runBuildOp cfg m' { h with pBuffer := some b' } op = .ok (.invalidParameter, some { h with pBuffer := some b' }, m') → BuildPair cfg m m' h b b' op := fun g g' =>
    (by
      rw [g] at e1; rw [g'] at e1'
      simp only [Run.ok.injEq, Prod.mk.injEq, Option.some.injEq] at e1 e1'
      obtain ⟨rfl, rfl, rfl⟩ := e1
      obtain ⟨rfl, rfl, rfl⟩ := e1'
      exact fin rfl rfl heq)
  have add : ∀ f v : Bytes, f ≠ [] → v ≠ [] → h.headersLen ≤ h.bufferLen → h.bufferLen + f.length + v.length + 6 < 2 ^ cfg.sizeBits →
      runBuildOp cfg m h op = (addHeader cfg m h (some f) (some v) >>= fun r => Run.ok (r.status, some r.hdrs, r.mem)) →
      runBuildOp cfg m' { h with pBuffer := some b' } op =
        (addHeader cfg m' { h with pBuffer := some b' } (some f) (some v) >>= fun r => Run.ok (r.status, some r.hdrs, r.mem)) → BuildPair cfg m m' h b b' op :=
    fun f v hf hv hle hw g g' => (by
      have R : ReqRel cfg ⟨.success, h, m⟩ ⟨.success, { h with pBuffer := some b' }, m'⟩ b b' :=
        ⟨rfl, rfl, rfl, hb, rfl, hle, hroom, hroom', by simpa [headerBlock, hb] using heq.symm⟩
      obtain ⟨s1, s2, a1, a2, R', _⟩ := addHeader_rel R hf hv hw
      dsimp only at a1 a2
      rw [a1] at g; rw [a2] at g'
      rw [g] at e1; rw [g'] at e1'
      simp only [Run.ok_bind, Run.ok.injEq, Prod.mk.injEq, Option.some.injEq] at e1 e1'
      obtain ⟨rfl, rfl, rfl⟩ := e1
      obtain ⟨rfl, rfl, rfl⟩ := e1'
      refine fin R'.status.symm R'.hl.symm ?_
      simp only [headerBlock, R'.p1, R'.p2, ← R'.hl]
      exact R'.eq.symm)
  cases op with
  | init info =>
    rcases info with _ | ⟨me, p, ho, fl⟩
    · exact inv (by simp [runBuildOp, HTTPClient_InitializeRequestHeaders, hb]) (by simp [runBuildOp, HTTPClient_InitializeRequestHeaders])
    · rcases me with _ | me
      · exact inv (by simp [runBuildOp, HTTPClient_InitializeRequestHeaders, hb]) (by simp [runBuildOp, HTTPClient_InitializeRequestHeaders])
      · rcases ho with _ | ho
        · exact inv (by simp [runBuildOp, HTTPClient_InitializeRequestHeaders, hb]) (by simp [runBuildOp, HTTPClient_InitializeRequestHeaders])
        · by_cases hme : me = []
          · exact inv (by simp [runBuildOp, HTTPClient_InitializeRequestHeaders, hb, hme]) (by simp [runBuildOp, HTTPClient_InitializeRequestHeaders, hme])
          · by_cases hho : ho = []
            · exact inv (by simp [runBuildOp, HTTPClient_InitializeRequestHeaders, hb, hme, hho])
                (by simp [runBuildOp, HTTPClient_InitializeRequestHeaders, hme, hho])
            · obtain ⟨st2, a1, a2, n1, n2, g1, g2, q1, q2⟩ := init_indep (cfg := cfg) (m1 := m) (m2 := m') (h1 := h) (h2 := { h with pBuffer := some b' })
                (info := ⟨some me, p, some ho, fl⟩) hb rfl rfl rfl rfl hme hho hua hroom hroom' (by
                  have := hok.1
                  simp only [opSize] at this
                  rw [initHeaders_eq, effectivePath_eq]
                  dsimp only
                  omega)
              simp only [runBuildOp] at e1 e1'
              rw [g1] at e1; rw [g2] at e1'
              simp only [Run.ok.injEq, Prod.mk.injEq, Option.some.injEq] at e1 e1'
              obtain ⟨rfl, rfl, rfl⟩ := e1
              obtain ⟨rfl, rfl, rfl⟩ := e1'
              exact fin rfl q1.symm q2.symm
  | addHeader f v =>
    rcases f with _ | f
    · exact inv (by simp [runBuildOp, HTTPClient_AddHeader, hb]) (by simp [runBuildOp, HTTPClient_AddHeader])
    · rcases v with _ | v
      · exact inv (by simp [runBuildOp, HTTPClient_AddHeader, hb]) (by simp [runBuildOp, HTTPClient_AddHeader])
      · by_cases hf : f = []
        · exact inv (by simp [runBuildOp, HTTPClient_AddHeader, hb, hf]) (by simp [runBuildOp, HTTPClient_AddHeader, hf])
        · by_cases hv : v = []
          · exact inv (by simp [runBuildOp, HTTPClient_AddHeader, hb, hf, hv]) (by simp [runBuildOp, HTTPClient_AddHeader, hf, hv])
          · by_cases hle : h.headersLen ≤ h.bufferLen
            · exact add f v hf hv hle (by have := hok.1; simp only [opSize] at this; omega)
                (by simp only [runBuildOp]; rw [addHeader_api hb hf hv hle])
                (by simp only [runBuildOp]; rw [addHeader_api (h := { h with pBuffer := some b' }) (b := b') rfl hf hv hle])
            · exact inv (by simp [runBuildOp, HTTPClient_AddHeader, hb, hf, hv]; omega) (by simp [runBuildOp, HTTPClient_AddHeader, hf, hv]; omega)
  | addRange s e =>
    obtain ⟨hsz, hs32, he32⟩ := hok
    by_cases hle : h.headersLen ≤ h.bufferLen
    · by_cases hv : ValidRange s e
      · obtain ⟨hrl, hrne⟩ := rangeText_length hs32 he32 hv
        have hr5 : RANGE_FIELD.length = 5 := by decide
        exact add RANGE_FIELD (rangeText (requestedRange s e)) (by decide) hrne hle (by simp only [opSize] at hsz; omega)
          (by simp only [runBuildOp]; rw [addRange_api hs32 he32 hb hle, if_pos hv])
          (by simp only [runBuildOp]; rw [addRange_api (h := { h with pBuffer := some b' }) (b := b') hs32 he32 rfl hle, if_pos hv])
      · exact inv (by simp only [runBuildOp]; rw [addRange_api hs32 he32 hb hle, if_neg hv])
          (by simp only [runBuildOp]; rw [addRange_api (h := { h with pBuffer := some b' }) (b := b') hs32 he32 rfl hle, if_neg hv])
    · exact inv (by simp [runBuildOp, HTTPClient_AddRangeHeader, hb]; omega) (by simp [runBuildOp, HTTPClient_AddRangeHeader]; omega)

/-- **C99** (building). The same calls on request objects with the same header block, in whatever blocks of whatever memories: same statuses, same request
object up to the buffer address, same header block; nothing outside the two buffers changes. -/
theorem C99_build {cfg : Cfg} (hua : cfg.userAgent ≠ []) (ops : List BuildOp) :
    ∀ {m m' : Mem} {h : ReqHeaders} {b b' : Nat}, HasBuf m h b → HasBuf m' { h with pBuffer := some b' } b' →
    headerBlock m' { h with pBuffer := some b' } = headerBlock m h → (∀ op ∈ ops, OpOk cfg h.bufferLen op) →
    ∃ sts h1 m1 m1', runBuildOps cfg m h ops = .ok (sts, h1, m1) ∧
      runBuildOps cfg m' { h with pBuffer := some b' } ops = .ok (sts, { h1 with pBuffer := some b' }, m1') ∧
      headerBlock m1' { h1 with pBuffer := some b' } = headerBlock m1 h1 ∧ FrameBuf m m1 b h.bufferLen ∧ FrameBuf m' m1' b' h.bufferLen := by
  induction ops with
  | nil => intro m m' h b b' _ _ heq _; exact ⟨[], h, m, m', rfl, rfl, heq, FrameBuf.refl .., FrameBuf.refl ..⟩
  | cons op ops ih =>
    intro m m' h b b' hb hb' heq hok
    obtain ⟨st, h1, m1, m1', e, e', p1, l1, f1, f1', q⟩ := runBuildOp_pair (op := op) hua hb.1 hb.2 hb'.2 heq (hok op (by simp))
    obtain ⟨sts, h2, m2, m2', g, g', q2, f2, f2'⟩ := ih (m := m1) (m' := m1') (h := h1) (b := b) (b' := b') ⟨p1, by rw [l1, f1.2.1]; exact hb.2⟩
      ⟨rfl, by show h1.bufferLen ≤ _; rw [l1, f1'.2.1]; exact hb'.2⟩ q (by rw [l1]; exact fun o ho => hok o (by simp [ho]))
    rw [l1] at f2 f2'
    refine ⟨st :: sts, h2, m2, m2', ?_, ?_, q2, f1.trans f2, f1'.trans f2'⟩
    · simp only [runBuildOps, e, Run.ok_bind, g]
    · simp only [runBuildOps, e', Run.ok_bind, g']

/-! ### Non-vacuity -/

/-- A new request in a buffer of zeros and one in a buffer of old data: the calls (one of them rejected for an invalid character) have the same statuses. -/
example : let h : ReqHeaders := ⟨some 0, 120, 0⟩
    let m : Mem := fun _ => List.replicate 120 0
    let m' : Mem := fun _ => List.replicate 130 88
    let ops : List BuildOp := [.init (some ⟨some (ascii "GET"), none, some (ascii "h"), 0⟩), .addHeader (some (ascii "A")) (some (ascii "1")), .addHeader (some (ascii "B:")) (some (ascii "2")),
      .addRange 5 9, .addHeader (some (ascii "C")) (some (List.replicate 100 67))]
    headerBlock m' { h with pBuffer := some 1 } = headerBlock m h ∧
    (match runBuildOps ⟨32, ascii "u", 10, 10⟩ m h ops with | .ok (sts, h1, _) => (sts, h1.headersLen) | _ => ([], 0)) =
      ([.success, .success, .invalidCharacter, .success, .insufficientMemory], 68) := by decide +kernel

end CoreHttp.Props

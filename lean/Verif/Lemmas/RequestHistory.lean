import Verif.Lemmas.RequestApi
import Verif.Spec.RequestHistory

/-! One call, then histories. -/

namespace CoreHttp
open Spec

theorem effectivePath_eq (p : Option Bytes) : pathOrDefault p = effectivePath p := by
  cases p with
  | none => rfl
  | some p => cases p with
    | nil => rfl
    | cons c cs => simp [pathOrDefault, effectivePath]

theorem and_two_pow_eq_zero (x i : Nat) : x &&& 2 ^ i = 0 ↔ x.testBit i = false := by
  constructor
  · intro h
    have := congrArg (fun y => Nat.testBit y i) h
    simpa [Nat.testBit_and, Nat.testBit_two_pow] using this
  · intro h
    apply Nat.eq_of_testBit_eq
    intro j
    simp only [Nat.testBit_and, Nat.testBit_two_pow, Nat.zero_testBit]
    by_cases hj : i = j
    · subst hj; simp [h]
    · simp [hj]

theorem noUA_flag (fl : UInt32) : (REQUEST_NO_USER_AGENT_FLAG &&& fl = 0) ↔ fl.toNat.testBit 1 = false := by
  have h : (REQUEST_NO_USER_AGENT_FLAG &&& fl).toNat = 2 &&& fl.toNat := by
    simp [REQUEST_NO_USER_AGENT_FLAG]
  rw [← UInt32.toNat_inj, h]
  rw [show (0 : UInt32).toNat = 0 from rfl, Nat.and_comm]
  rw [show (2 : Nat) = 2 ^ 1 from rfl, and_two_pow_eq_zero]

theorem keepAlive_flag (fl : UInt32) : (REQUEST_KEEP_ALIVE_FLAG &&& fl = 0) ↔ fl.toNat.testBit 0 = false := by
  have h : (REQUEST_KEEP_ALIVE_FLAG &&& fl).toNat = 1 &&& fl.toNat := by
    simp [REQUEST_KEEP_ALIVE_FLAG]
  rw [← UInt32.toNat_inj, h]
  rw [show (0 : UInt32).toNat = 0 from rfl, Nat.and_comm]
  rw [show (1 : Nat) = 2 ^ 0 from rfl, and_two_pow_eq_zero]

theorem initHeaders_eq (cfg : Cfg) (fl : UInt32) (ho : Bytes) :
    initHeaders cfg fl ho = documentedHeaders cfg.userAgent ho fl.toNat := by
  unfold initHeaders documentedHeaders
  rw [List.append_assoc]
  simp only [ne_eq, noUA_flag, keepAlive_flag]
  cases fl.toNat.testBit 1 <;> cases fl.toNat.testBit 0 <;> rfl

theorem addHeader_api {cfg : Cfg} {m : Mem} {h : ReqHeaders} {b : Nat} {f v : Bytes} (hb : h.pBuffer = some b) (hf : f ≠ [])
    (hv : v ≠ []) (hle : h.headersLen ≤ h.bufferLen) :
    HTTPClient_AddHeader cfg m (some h) (some f) (some v) =
      (addHeader cfg m h (some f) (some v) >>= fun r => .ok (r.status, some r.hdrs, r.mem)) := by
  have hfl : f.length ≠ 0 := by simpa using hf
  have hvl : v.length ≠ 0 := by simpa using hv
  unfold HTTPClient_AddHeader
  simp only [hb, hfl, hvl, if_false, show ¬ h.headersLen > h.bufferLen by omega]

theorem rangeText_length {s e : Int} (hs : Int32 s) (he : Int32 e) (hv : ValidRange s e) :
    (rangeText (requestedRange s e)).length ≤ 27 ∧ rangeText (requestedRange s e) ≠ [] := by
  obtain ⟨hs1, hs2⟩ := hs
  obtain ⟨he1, he2⟩ := he
  obtain ⟨v1, v2, v3, v4⟩ := hv
  have h6 : (ascii "bytes=").length = 6 := by decide
  have h7 : (ascii "bytes=-").length = 7 := by decide
  have h1 : (ascii "-").length = 1 := by decide
  unfold requestedRange
  have key : ∀ x : Bytes, 0 < x.length → x ≠ [] := fun x h => List.length_pos_iff.mp h
  split
  · have : (decimal s.natAbs).length ≤ 10 := decimal_le10 (by omega)
    refine ⟨?_, key _ ?_⟩ <;> simp only [rangeText, List.length_append, h7] <;> omega
  · have hd : (decimal s.toNat).length ≤ 10 := decimal_le10 (by omega)
    split
    · refine ⟨?_, key _ ?_⟩ <;> simp only [rangeText, List.length_append, h6, h1] <;> omega
    · have hd2 : (decimal e.toNat).length ≤ 10 := decimal_le10 (by omega)
      refine ⟨?_, key _ ?_⟩ <;> simp only [rangeText, List.length_append, h6, h1] <;> omega

theorem addRange_api {cfg : Cfg} {m : Mem} {h : ReqHeaders} {b : Nat} {s e : Int} (hs : Int32 s) (he : Int32 e)
    (hb : h.pBuffer = some b) (hle : h.headersLen ≤ h.bufferLen) :
    HTTPClient_AddRangeHeader cfg m (some h) s e =
      if ValidRange s e then
        (addHeader cfg m h (some RANGE_FIELD) (some (rangeText (requestedRange s e))) >>=
          fun r => .ok (r.status, some r.hdrs, r.mem))
      else .ok (.invalidParameter, some h, m) := by
  unfold HTTPClient_AddRangeHeader
  have hE : RANGE_END_OF_FILE = -1 := by decide
  have hM : INT32_MIN = -2147483648 := by decide
  simp only [hb, show ¬ h.headersLen > h.bufferLen by omega, if_false]
  by_cases hv : ValidRange s e
  · rw [if_pos hv]
    have hv' := hv
    obtain ⟨v1, v2, v3, v4⟩ := hv'
    rw [if_neg (by omega), if_neg (by omega), if_neg (by omega), if_neg (by omega)]
    unfold addRangeHeader
    rw [rangeValue_eq hs he hv]
    rfl
  · rw [if_neg hv]
    by_cases a1 : e < RANGE_END_OF_FILE
    · rw [if_pos a1]
    · rw [if_neg a1]
      by_cases a2 : s < 0 ∧ e ≠ RANGE_END_OF_FILE
      · rw [if_pos a2]
      · rw [if_neg a2]
        by_cases a3 : e ≠ RANGE_END_OF_FILE ∧ s > e
        · rw [if_pos a3]
        · rw [if_neg a3]
          by_cases a4 : s = INT32_MIN
          · rw [if_pos a4]
          · exact absurd ⟨by omega, by omega, by omega, by omega⟩ hv

/-- What is known after one call. -/
def OpPost (cfg : Cfg) (m : Mem) (h : ReqHeaders) (b : Nat) (op : BuildOp) : Prop :=
    ∃ st h' m', runBuildOp cfg m h op = .ok (st, some h', m') ∧
      h'.pBuffer = some b ∧ h'.bufferLen = h.bufferLen ∧ (h.headersLen ≤ h.bufferLen → h'.headersLen ≤ h'.bufferLen) ∧
      FrameBuf m m' b h.bufferLen ∧
      (st = .success ∨ st = .insufficientMemory ∨ st = .invalidCharacter ∨ st = .invalidParameter) ∧
      (st = .invalidParameter → h' = h ∧ m' = m) ∧
      (∀ a, (∀ l hs, a = some (l, hs) → HasBlock cfg m h b (requestBlock l hs) ∧ crlf <:+ l ∧
            ∀ p ∈ hs, p.1 ≠ [] ∧ CleanField p.1 ∧ CleanValue p.2) →
        ∀ l hs, absStep cfg.userAgent a op st = some (l, hs) →
          HasBlock cfg m' h' b (requestBlock l hs) ∧ crlf <:+ l ∧ ∀ p ∈ hs, p.1 ≠ [] ∧ CleanField p.1 ∧ CleanValue p.2)

/-- Summary of one call. -/
theorem runBuildOp_spec {cfg : Cfg} {m : Mem} {h : ReqHeaders} {b : Nat} {op : BuildOp}
    (hua : cfg.userAgent ≠ []) (hb : h.pBuffer = some b) (h2 : h.bufferLen ≤ (m b).length)
    (hok : OpOk cfg h.bufferLen op) :
    OpPost cfg m h b op := by
  -- adding one header, given the abstract step appends it
  have addCase : ∀ (f v : Bytes), f ≠ [] → v ≠ [] → h.headersLen ≤ h.bufferLen →
      h.bufferLen + f.length + v.length + 6 < 2 ^ cfg.sizeBits →
      ∃ st h' m', (addHeader cfg m h (some f) (some v) >>= fun r => Run.ok (r.status, some r.hdrs, r.mem))
          = .ok (st, some h', m') ∧
        h'.pBuffer = some b ∧ h'.bufferLen = h.bufferLen ∧ h'.headersLen ≤ h'.bufferLen ∧
        FrameBuf m m' b h.bufferLen ∧
        (st = .success ∨ st = .insufficientMemory ∨ st = .invalidCharacter) ∧
        (st = .insufficientMemory → h' = h ∧ m' = m) ∧
        (st = .success → ∀ l hs, HasBlock cfg m h b (requestBlock l hs) → crlf <:+ l →
          (∀ p ∈ hs, p.1 ≠ [] ∧ CleanField p.1 ∧ CleanValue p.2) →
          HasBlock cfg m' h' b (requestBlock l (hs ++ [(f, v)])) ∧
            ∀ p ∈ hs ++ [(f, v)], p.1 ≠ [] ∧ CleanField p.1 ∧ CleanValue p.2) := by
    intro f v hf hv hle hw
    have hkl : (stripBlankLine (headerBlock m h)).length ≤ h.bufferLen := by
      have h1 := strip_length_le (headerBlock m h)
      have h3 : (headerBlock m h).length ≤ h.headersLen := by
        simp only [headerBlock, hb, List.length_take]; omega
      omega
    obtain ⟨st, h1, m1, hadd, hb1, hbl1, hle1, hfr1, hins, hinseq, hsucc, hinv, hinveq, hblock, hcase⟩ :=
      addHeader_block (cfg := cfg) (m := m) (h := h) (b := b) (f := f) (v := v) hb hf hv hle h2 (by omega)
    refine ⟨st, h1, m1, by rw [hadd]; rfl, hb1, hbl1, hle1, hfr1, hcase, hinseq, ?_⟩
    intro hst l hs hB hl hcl
    have hstrip : stripBlankLine (requestBlock l hs) = l ++ headerLines hs := by
      apply strip_crlf
      cases hs.eq_nil_or_concat with
      | inl h0 => subst h0; simpa [headerLines] using hl
      | inr h0 =>
        obtain ⟨t, p, rfl⟩ := h0
        obtain ⟨pf, pv⟩ := p
        rw [List.concat_eq_append, headerLines_append]
        have := crlf_suffix_headerLine (l ++ headerLines t) pf pv
        simpa [headerLines, List.append_assoc] using this
    have hblk := hblock hst
    rw [hB.eq, hstrip] at hblk
    have e : l ++ headerLines hs ++ headerLine f v ++ crlf = requestBlock l (hs ++ [(f, v)]) := by
      simp [requestBlock, headerLines, List.append_assoc]
    rw [e] at hblk
    refine ⟨⟨hb1, by rw [hblk.2, hblk.1], hle1, by rw [hbl1, hfr1.2.1]; exact h2, hblk.1⟩, ?_⟩
    intro p hp
    rcases List.mem_append.mp hp with hp | hp
    · exact hcl p hp
    · simp at hp; subst hp; exact ⟨hf, (hsucc.mp hst).2⟩
  cases op with
  | init info =>
    have inv : ∀ (hrun : runBuildOp cfg m h (.init info) = .ok (.invalidParameter, some h, m)), _ := fun hrun =>
      (⟨.invalidParameter, h, m, hrun, hb, rfl, fun hh => hh, FrameBuf.refl .., by simp, by simp, by
        intro a ha l hs hstep
        have : absStep cfg.userAgent a (.init info) .invalidParameter = a := by
          unfold absStep; split <;> simp_all
        rw [this] at hstep; exact ha l hs hstep⟩ : OpPost cfg m h b (.init info))
    rcases info with _ | ⟨me, p, ho, fl⟩
    · exact inv (by simp [runBuildOp, HTTPClient_InitializeRequestHeaders, hb])
    · rcases me with _ | me
      · exact inv (by simp [runBuildOp, HTTPClient_InitializeRequestHeaders, hb])
      · rcases ho with _ | ho
        · exact inv (by simp [runBuildOp, HTTPClient_InitializeRequestHeaders, hb])
        · by_cases hme : me = []
          · exact inv (by simp [runBuildOp, HTTPClient_InitializeRequestHeaders, hb, hme])
          · by_cases hho : ho = []
            · exact inv (by simp [runBuildOp, HTTPClient_InitializeRequestHeaders, hb, hme, hho])
            · obtain ⟨st, h', m', e, hb', hbl', hle', hfr', hcase', hB', hiff', _⟩ :=
                init_spec (cfg := cfg) (m := m) (h := h) (b := b) (info := ⟨some me, p, some ho, fl⟩) (me := me) (ho := ho)
                  hb rfl rfl hme hho (fun _ => hua) h2
                  (by
                    have := hok.1
                    simp only [opSize] at this
                    rw [initHeaders_eq, effectivePath_eq]
                    dsimp only
                    omega)
              refine ⟨st, h', m', e, hb', hbl', fun _ => hle', hfr', ?_, ?_, ?_⟩
              · rcases hcase' with h | h | h <;> simp [h]
              · rcases hcase' with h | h | h <;> simp [h]
              · intro a ha l hs hstep
                rcases hcase' with h | h | h
                · subst h
                  simp only [absStep, Option.some.injEq, Prod.mk.injEq] at hstep
                  obtain ⟨rfl, rfl⟩ := hstep
                  have hB'' := hB' rfl
                  rw [initHeaders_eq, effectivePath_eq] at hB''
                  refine ⟨hB'', requestLine_crlf _ _, ?_⟩
                  intro q hq
                  have hcl := (hiff'.mp rfl).2
                  rw [initHeaders_eq] at hcl
                  refine ⟨?_, hcl q hq⟩
                  simp only [documentedHeaders, List.mem_append] at hq
                  rcases hq with (hq | hq) | hq
                  · split at hq
                    · simp at hq
                    · simp at hq; subst hq; exact (show ascii "User-Agent" ≠ [] by decide)
                  · simp at hq; subst hq; exact (show ascii "Host" ≠ [] by decide)
                  · split at hq
                    · simp at hq; subst hq; exact (show ascii "Connection" ≠ [] by decide)
                    · simp at hq
                · subst h; simp [absStep] at hstep
                · subst h; simp [absStep] at hstep
  | addHeader f v =>
    have inv : ∀ (hrun : runBuildOp cfg m h (.addHeader f v) = .ok (.invalidParameter, some h, m)), _ := fun hrun =>
      (⟨.invalidParameter, h, m, hrun, hb, rfl, fun hh => hh, FrameBuf.refl .., by simp, by simp, by
        intro a ha l hs hstep
        have : absStep cfg.userAgent a (.addHeader f v) .invalidParameter = a := by
          cases f <;> cases v <;> rfl
        rw [this] at hstep; exact ha l hs hstep⟩ : OpPost cfg m h b (.addHeader f v))
    rcases f with _ | f
    · exact inv (by simp [runBuildOp, HTTPClient_AddHeader, hb])
    · rcases v with _ | v
      · exact inv (by simp [runBuildOp, HTTPClient_AddHeader, hb])
      · by_cases hf : f = []
        · exact inv (by simp [runBuildOp, HTTPClient_AddHeader, hb, hf])
        · by_cases hv : v = []
          · exact inv (by simp [runBuildOp, HTTPClient_AddHeader, hb, hf, hv])
          · by_cases hle : h.headersLen ≤ h.bufferLen
            · obtain ⟨st, h', m', e, hb', hbl', hle', hfr', hcase', hins', hB'⟩ :=
                addCase f v hf hv hle (by have := hok.1; simp only [opSize] at this; omega)
              refine ⟨st, h', m', ?_, hb', hbl', fun _ => hle', hfr', ?_, ?_, ?_⟩
              · simp only [runBuildOp]; rw [addHeader_api hb hf hv hle]; exact e
              · rcases hcase' with h | h | h <;> simp [h]
              · rcases hcase' with h | h | h <;> simp [h]
              · intro a ha l hs hstep
                rcases hcase' with h | h | h
                · subst h
                  rcases a with _ | ⟨l0, hs0⟩
                  · simp [absStep] at hstep
                  · simp only [absStep, Option.map_some, Option.some.injEq, Prod.mk.injEq] at hstep
                    obtain ⟨rfl, rfl⟩ := hstep
                    obtain ⟨h1, h2, h3⟩ := ha _ _ rfl
                    obtain ⟨h4, h5⟩ := hB' rfl _ _ h1 h2 h3
                    exact ⟨h4, h2, h5⟩
                · subst h
                  simp only [absStep] at hstep
                  obtain ⟨rfl, rfl⟩ := hins' rfl
                  exact ha l hs hstep
                · subst h
                  simp [absStep] at hstep
            · exact inv (by simp [runBuildOp, HTTPClient_AddHeader, hb, hf, hv]; omega)
  | addRange s e =>
    obtain ⟨hsz, hs32, he32⟩ := hok
    have inv : ∀ (hrun : runBuildOp cfg m h (.addRange s e) = .ok (.invalidParameter, some h, m)), _ := fun hrun =>
      (⟨.invalidParameter, h, m, hrun, hb, rfl, fun hh => hh, FrameBuf.refl .., by simp, by simp, by
        intro a ha l hs hstep
        have : absStep cfg.userAgent a (.addRange s e) .invalidParameter = a := rfl
        rw [this] at hstep; exact ha l hs hstep⟩ : OpPost cfg m h b (.addRange s e))
    by_cases hle : h.headersLen ≤ h.bufferLen
    · by_cases hv : ValidRange s e
      · obtain ⟨hrl, hrne⟩ := rangeText_length hs32 he32 hv
        have hr5 : RANGE_FIELD.length = 5 := by decide
        obtain ⟨st, h', m', e', hb', hbl', hle', hfr', hcase', hins', hB'⟩ :=
          addCase RANGE_FIELD (rangeText (requestedRange s e)) (by decide) hrne hle (by simp only [opSize] at hsz; omega)
        refine ⟨st, h', m', ?_, hb', hbl', fun _ => hle', hfr', ?_, ?_, ?_⟩
        · simp only [runBuildOp]; rw [addRange_api hs32 he32 hb hle, if_pos hv]; exact e'
        · rcases hcase' with h | h | h <;> simp [h]
        · rcases hcase' with h | h | h <;> simp [h]
        · intro a ha l hs hstep
          rcases hcase' with h | h | h
          · subst h
            rcases a with _ | ⟨l0, hs0⟩
            · simp [absStep] at hstep
            · simp only [absStep, Option.map_some, Option.some.injEq, Prod.mk.injEq] at hstep
              obtain ⟨rfl, rfl⟩ := hstep
              obtain ⟨h1, h2, h3⟩ := ha _ _ rfl
              obtain ⟨h4, h5⟩ := hB' rfl _ _ h1 h2 h3
              exact ⟨h4, h2, h5⟩
          · subst h
            simp only [absStep] at hstep
            obtain ⟨rfl, rfl⟩ := hins' rfl
            exact ha l hs hstep
          · subst h
            simp [absStep] at hstep
      · exact inv (by simp only [runBuildOp]; rw [addRange_api hs32 he32 hb hle, if_neg hv])
    · exact inv (by simp [runBuildOp, HTTPClient_AddRangeHeader, hb]; omega)

theorem runBuildOps_spec {cfg : Cfg} (hua : cfg.userAgent ≠ []) (ops : List BuildOp) :
    ∀ (m : Mem) (h : ReqHeaders) (b : Nat) (a : AbsReq), h.pBuffer = some b → h.bufferLen ≤ (m b).length →
    (∀ op ∈ ops, OpOk cfg h.bufferLen op) →
    ∃ sts h' m', runBuildOps cfg m h ops = .ok (sts, h', m') ∧ sts.length = ops.length ∧
      h'.pBuffer = some b ∧ h'.bufferLen = h.bufferLen ∧ (h.headersLen ≤ h.bufferLen → h'.headersLen ≤ h'.bufferLen) ∧
      FrameBuf m m' b h.bufferLen ∧
      ((∀ l hs, a = some (l, hs) → HasBlock cfg m h b (requestBlock l hs) ∧ crlf <:+ l ∧
            ∀ p ∈ hs, p.1 ≠ [] ∧ CleanField p.1 ∧ CleanValue p.2) →
        ∀ l hs, absRun cfg.userAgent a (ops.zip sts) = some (l, hs) →
          HasBlock cfg m' h' b (requestBlock l hs) ∧ crlf <:+ l ∧ ∀ p ∈ hs, p.1 ≠ [] ∧ CleanField p.1 ∧ CleanValue p.2) := by
  induction ops with
  | nil =>
    intro m h b a hb h2 _
    exact ⟨[], h, m, rfl, rfl, hb, rfl, fun h => h, FrameBuf.refl .., fun ha l hs h => ha l hs h⟩
  | cons op ops ih =>
    intro m h b a hb h2 hok
    obtain ⟨st, h1, m1, e1, hb1, hbl1, hle1, hfr1, _, _, habs1⟩ := runBuildOp_spec (op := op) hua hb h2 (hok op (by simp))
    obtain ⟨sts, h', m', e', hlen', hb', hbl', hle', hfr', habs'⟩ := ih m1 h1 b (absStep cfg.userAgent a op st) hb1
      (by rw [hbl1, hfr1.2.1]; exact h2) (by rw [hbl1]; exact fun o ho => hok o (by simp [ho]))
    refine ⟨st :: sts, h', m', ?_, by simp [hlen'], hb', hbl'.trans hbl1, fun hl => hle' (hbl1 ▸ hle1 hl), ?_, ?_⟩
    · simp only [runBuildOps, e1, Run.ok_bind, e']
    · rw [hbl1] at hfr'; exact hfr1.trans hfr'
    · intro ha l hs hrun
      exact habs' (habs1 a ha) l hs hrun

end CoreHttp

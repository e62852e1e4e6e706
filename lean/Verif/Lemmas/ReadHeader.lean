import Verif.Model.ReadHeader
import Verif.Spec.Header
import Verif.Lemmas.RecvBase

/-! # Looking up a header -/

namespace CoreHttp
open Spec
variable {σ : Type}

theorem cmpUpper_iff (a b : UInt8) : cmpUpper a = cmpUpper b ↔ sameLetter a b := by
  have key : ∀ c : UInt8, (cmpUpper c).toNat = if 97 ≤ c.toNat ∧ c.toNat ≤ 122 then c.toNat - 32 else c.toNat := by
    intro c
    unfold cmpUpper
    have h1 : (c ≥ 97 ∧ c ≤ 122) ↔ (97 ≤ c.toNat ∧ c.toNat ≤ 122) := by
      rw [ge_iff_le, UInt8.le_iff_toNat_le, UInt8.le_iff_toNat_le]; rfl
    by_cases h : c ≥ 97 ∧ c ≤ 122
    · rw [if_pos h, if_pos (h1.mp h)]
      have h2 := h1.mp h
      rw [UInt8.toNat_sub_of_le _ _ (by rw [UInt8.le_iff_toNat_le]; show 32 ≤ c.toNat; omega)]
      rfl
    · rw [if_neg h, if_neg (fun h2 => h (h1.mpr h2))]
  have ha := key a
  have hb := key b
  rw [← UInt8.toNat_inj]
  unfold sameLetter
  rw [← UInt8.toNat_inj]
  split at ha <;> split at hb <;> omega

theorem sameLetter_refl (a : UInt8) : sameLetter a a := .inl rfl
theorem sameLetter_symm {a b : UInt8} (h : sameLetter a b) : sameLetter b a := by
  rw [← cmpUpper_iff] at h ⊢; exact h.symm
theorem sameLetter_trans {a b c : UInt8} (h1 : sameLetter a b) (h2 : sameLetter b c) : sameLetter a c := by
  rw [← cmpUpper_iff] at *; exact h1.trans h2

theorem cmpLoop_spec (s t : Bytes) (n : Nat) (hs : s.length = n) (ht : t.length = n) : ∀ i, i ≤ n →
    ∃ j, cmpLoop s t n i = .ok j ∧
      (j = n ↔ ∀ (k : Nat) a b, i ≤ k → s[k]? = some a → t[k]? = some b → sameLetter a b) := by
  intro i
  induction h : n - i generalizing i with
  | zero =>
    intro hi
    unfold cmpLoop
    rw [if_neg (by omega)]
    refine ⟨i, rfl, fun _ k a b hk h1 _ => ?_, fun _ => by omega⟩
    rw [List.getElem?_eq_none (by omega)] at h1; cases h1
  | succ m ih =>
    intro hi
    have hlt : i < n := by omega
    unfold cmpLoop
    rw [if_pos hlt]
    have h1 : s[i]? = some s[i] := List.getElem?_eq_getElem (by omega)
    have h2 : t[i]? = some t[i] := List.getElem?_eq_getElem (by omega)
    rw [h1, h2]
    dsimp only
    by_cases hc : cmpUpper s[i] = cmpUpper t[i]
    · rw [if_neg (by simpa using hc)]
      obtain ⟨j, e, hj⟩ := ih (i + 1) (by omega) (by omega)
      refine ⟨j, e, hj.trans ⟨fun h k a b hk ha hb => ?_, fun h k a b hk => h k a b (by omega)⟩⟩
      rcases Nat.lt_or_eq_of_le hk with hk | rfl
      · exact h k a b hk ha hb
      · rw [h1] at ha; rw [h2] at hb
        cases ha; cases hb
        exact (cmpUpper_iff _ _).mp hc
    · rw [if_pos hc]
      refine ⟨i, rfl, fun h => by omega, fun h => ?_⟩
      exact absurd ((cmpUpper_iff _ _).mpr (h i _ _ (Nat.le_refl _) h1 h2)) hc

open Classical in
theorem caseCmp_spec (s t : Bytes) (n : Nat) (hs : s.length = n) (ht : t.length = n) :
    caseInsensitiveStringCmp s t n = .ok (if sameName s t then 0 else 1) := by
  unfold caseInsensitiveStringCmp
  obtain ⟨j, e, hj⟩ := cmpLoop_spec s t n hs ht 0 (Nat.zero_le _)
  rw [e]
  simp only [Run.ok_bind, Run.pure_eq]
  have : j = n ↔ sameName s t := by
    rw [hj]; unfold sameName
    exact ⟨fun h => ⟨by omega, fun i a b => h i a b (Nat.zero_le _)⟩, fun h k a b _ => h.2 k a b⟩
  by_cases h : j = n
  · rw [if_pos h, if_pos (this.mp h)]
  · rw [if_neg h, if_neg (fun h' => h (this.mpr h'))]

open Classical in
/-- The search, on the list of events: was the last field name the one searched for, and the first value found. -/
noncomputable def scan (name : Bytes) : Bool → List PObs → Bool × Option PObs
  | ff, [] => (ff, none)
  | ff, o :: os => match o.ev with
    | .headerField _ _ => scan name (decide (sameName name o.data)) os
    | .headerValue _ _ => if ff then (true, some o) else scan name ff os
    | _ => scan name ff os

/-- Phases a parser can be in while looking up a header. -/
def lookPhase : Phase → Prop
  | .idle | .line | .hdrs | .field | .value | .nobody | .complete => True
  | _ => False

variable {S : Type} {strict : Bool} {Inv : S → Phase → Nat → Nat → Prop}

open Classical in
/-- One llhttp_execute of a lookup. -/
theorem findTree {name : Bytes} (hn : 0 < name.length) (b : Nat) (data : Bytes) : ∀ (t : PTree S) (ph : Phase) (lo : Nat) (h : FindCtx)
    (w : World PLog σ), TreeOk strict Inv 0 data.length t ph lo → lookPhase ph → (ph = .field ∨ ph = .value → 0 < lo) →
    (w.mem b).take data.length = data →
    h.valueFound = false → (h.fieldFound = true → ph = .field) →
    ∃ er ep s h' log', runTree b 0 data (findCallback b 0 name) t h w = (.ok (er, ep, s, h'), { w with log := w.log ++ log' }) ∧
      (match scan name h.fieldFound ((t.run (answers .noBody)).1.map (·.observe 0 data)) with
       | (_, some o) => er = .user ∧ h' = ⟨true, true, if o.data = [] then none else some o.loc, o.data.length⟩ ∧
            o.loc + o.data.length ≤ data.length ∧ slice data o.loc o.data.length = o.data
       | (ff, none) => er = (t.run (answers .noBody)).2.1 ∧ h' = ⟨ff, false, h.valueLoc, h.valueLen⟩) := by
  intro t
  induction t with
  | done er ep s =>
    intro ph lo h w ht hph hlo hm hv hf
    refine ⟨er, ep, s, h, [.parserEvent (.ret er ep)], rfl, ?_⟩
    simp only [PTree.run, List.map_nil, scan]
    obtain ⟨ff, vf, vl, vn⟩ := h
    dsimp only at hv; subst hv
    simp
  | call e k ih =>
    intro ph lo h w ht hph hlo hm hv hf
    obtain ⟨hev, hk⟩ := ht
    -- a callback that continues with answer `r`, leaving the context alone
    have step : ∀ (r : CbRet) (h1 : FindCtx), RetOk e r → r = answers .noBody e → lookPhase (ph.next e r) →
        (ph.next e r = .field ∨ ph.next e r = .value → 0 < endPos 0 lo e) →
        h1.valueFound = false → (h1.fieldFound = true → ph.next e r = .field) → h1.valueLoc = h.valueLoc → h1.valueLen = h.valueLen →
        findCallback b 0 name e h ⟨w.env, w.mem, w.log ++ [.parserEvent (.obs (e.observe 0 data))]⟩ =
          (.ok (r, h1), ⟨w.env, w.mem, w.log ++ [.parserEvent (.obs (e.observe 0 data))]⟩) →
        scan name h.fieldFound (((PTree.call e k).run (answers .noBody)).1.map (·.observe 0 data)) =
          scan name h1.fieldFound (((k r).run (answers .noBody)).1.map (·.observe 0 data)) →
        ∃ er ep s h' log', runTree b 0 data (findCallback b 0 name) (.call e k) h w = (.ok (er, ep, s, h'), { w with log := w.log ++ log' }) ∧
      (match scan name h.fieldFound (((PTree.call e k).run (answers .noBody)).1.map (·.observe 0 data)) with
       | (_, some o) => er = .user ∧ h' = ⟨true, true, if o.data = [] then none else some o.loc, o.data.length⟩ ∧
            o.loc + o.data.length ≤ data.length ∧ slice data o.loc o.data.length = o.data
       | (ff, none) => er = ((PTree.call e k).run (answers .noBody)).2.1 ∧ h' = ⟨ff, false, h.valueLoc, h.valueLen⟩) := by
      intro r h1 hr hra hl1 hlo1 hv1 hf1 hloc hlen hcb hsc
      obtain ⟨er, ep, s, h', log', e1, h2⟩ := ih r (ph.next e r) (endPos 0 lo e) h1
        ⟨w.env, w.mem, w.log ++ [.parserEvent (.obs (e.observe 0 data))] ++ [.parserEvent (.mem (w.mem b))]⟩ (hk r hr) hl1 hlo1 hm hv1 hf1
      refine ⟨er, ep, s, h', .parserEvent (.obs (e.observe 0 data)) :: .parserEvent (.mem (w.mem b)) :: log', ?_, ?_⟩
      · simp only [runTree, M.bind_apply, M.emit_apply, hcb, M.world_apply]
        rw [e1]
        simp
      · rw [hsc]
        rw [hloc, hlen] at h2
        have : ((PTree.call e k).run (answers .noBody)).2.1 = ((k r).run (answers .noBody)).2.1 := by rw [hra]; rfl
        rw [this]
        exact h2
    have hrun : ((PTree.call e k).run (answers .noBody)).1.map (·.observe 0 data) =
        e.observe 0 data :: ((k (answers .noBody e)).run (answers .noBody)).1.map (·.observe 0 data) := rfl
    have hfn : ph ≠ .field → h.fieldFound = false := by
      intro hp
      cases hff : h.fieldFound with
      | false => rfl
      | true => exact absurd (hf hff) hp
    cases e with
    | messageBegin =>
      have hp : ph ≠ .field := by rintro rfl; simp [EvOk] at hev
      exact step .continue_ h rfl rfl trivial (by simp [Phase.next]) hv (fun h0 => by rw [hfn hp] at h0; cases h0) rfl rfl rfl rfl
    | status off len code =>
      have hp : ph ≠ .field := by rintro rfl; simp [EvOk] at hev
      exact step .continue_ h rfl rfl trivial (by simp [Phase.next]) hv (fun h0 => by rw [hfn hp] at h0; cases h0) rfl rfl rfl rfl
    | statusComplete code =>
      have hp : ph ≠ .field := by rintro rfl; simp [EvOk] at hev
      exact step .continue_ h rfl rfl trivial (by simp [Phase.next]) hv (fun h0 => by rw [hfn hp] at h0; cases h0) rfl rfl rfl rfl
    | headersComplete at_ cl cc ka =>
      have hp : ph ≠ .field := by rintro rfl; simp [EvOk] at hev
      exact step .noBody h (by simp [RetOk]) rfl trivial (by simp [Phase.next]) hv (fun h0 => by rw [hfn hp] at h0; cases h0) rfl rfl rfl rfl
    | body off len =>
      exfalso
      have := hev.1
      subst this; exact hph
    | messageComplete =>
      have hp : ph ≠ .field := by rintro rfl; simp [EvOk] at hev
      exact step .continue_ h rfl rfl trivial (by simp [Phase.next]) hv (fun h0 => by rw [hfn hp] at h0; cases h0) rfl rfl rfl rfl
    | headerField off len =>
      obtain ⟨⟨hs1, hs2, hs3⟩, hcase⟩ := hev
      have hmain : (ph = .hdrs ∨ ph = .value) ∧ 0 < len := by
        rcases hcase with ⟨hp, hl⟩ | ⟨hp, h1, h2⟩
        · refine ⟨?_, hl⟩
          rcases hp with hp | hp | hp | hp
          · exact .inl hp
          · exact .inr hp
          · subst hp; exact hph.elim
          · subst hp; exact hph.elim
        · rcases hp with hp | hp
          · have := hlo (.inl hp); omega
          · subst hp; exact hph.elim
      have hpn : ph ≠ .field := by rcases hmain.1 with rfl | rfl <;> simp
      have hff := hfn hpn
      have hnext : ph.next (.headerField off len) .continue_ = .field := by rcases hmain.1 with rfl | rfl <;> simp [Phase.next]
      have hod : (PEv.observe 0 data (.headerField off len)).data = (data.drop off).take len := rfl
      have hol : ((data.drop off).take len).length = len := by rw [List.length_take, List.length_drop]; omega
      have hrd : memRead (w.mem b) (0 + off) len = .ok ((data.drop off).take len) := by
        have hml : data.length ≤ (w.mem b).length := by
          have := congrArg List.length hm; rw [List.length_take] at this; omega
        rw [memRead_ok (by omega)]
        congr 1
        rw [Nat.zero_add]
        have h5 : data.drop off = ((w.mem b).drop off).take (data.length - off) := by
          conv => lhs; rw [← hm]
          rw [List.drop_take]
        rw [h5, List.take_take, Nat.min_eq_left (by omega)]
      refine step .continue_ { h with fieldFound := decide (sameName name ((data.drop off).take len)) } rfl rfl
        (by rw [hnext]; trivial) (fun _ => by simp only [endPos]; omega) hv (fun _ => hnext) rfl rfl ?_ ?_
      · unfold findCallback findHeaderFieldCb
        simp only [M.bind_apply, decide_eq_true hmain.2, decide_eq_true hn, hff, hv, Bool.not_false, mAssert_true]
        by_cases hl : len = name.length
        · rw [if_pos hl]
          simp only [M.bind_apply, M.world_apply, M.ofRun_apply, hrd, caseCmp_spec name _ len hl.symm hol, M.pure_apply]
          by_cases hsn : sameName name ((data.drop off).take len)
          · simp [hsn]
          · obtain ⟨ff, vf, vl, vn⟩ := h
            dsimp only at hff hv
            subst hff; subst hv
            dsimp only
            rw [if_neg hsn, if_neg (by decide), decide_eq_false hsn]
        · rw [if_neg hl]
          have hsn : ¬ sameName name ((data.drop off).take len) := fun h' => hl (by rw [h'.1, hol])
          obtain ⟨ff, vf, vl, vn⟩ := h
          dsimp only at hff hv
          subst hff; subst hv
          dsimp only
          rw [decide_eq_false hsn]; rfl
      · rw [hrun]
        simp only [scan, PEv.observe, PEv.span]
        rfl
    | headerValue off len =>
      obtain ⟨⟨hs1, hs2, hs3⟩, hcase, _⟩ := hev
      have hmain : ph = .field ∨ ph = .value := by
        rcases hcase with hp | hp | hp | hp
        · exact .inl hp
        · exact .inr hp
        · subst hp; exact hph.elim
        · subst hp; exact hph.elim
      have hnext : ph.next (.headerValue off len) .continue_ = .value := by rcases hmain with rfl | rfl <;> simp [Phase.next]
      have hol : ((data.drop off).take len).length = len := by rw [List.length_take, List.length_drop]; omega
      by_cases hff : h.fieldFound = true
      case neg =>
        have hff : h.fieldFound = false := by simpa using hff
        refine step .continue_ h (.inl rfl) rfl (by rw [hnext]; trivial) (fun _ => ?_) hv (fun h0 => by rw [hff] at h0; cases h0) rfl rfl ?_ ?_
        · have := hlo hmain; simp only [endPos]; omega
        · unfold findCallback findHeaderValueCb
          simp [decide_eq_true hn, hff, hv]
        · rw [hrun]
          simp only [scan, PEv.observe, PEv.span, hff]
          rfl
      case pos =>
        -- found: the parser stops
        have hk1 := hk .user (.inr rfl)
        have hph1 : ph.next (.headerValue off len) .user = .stopped := rfl
        rw [hph1] at hk1
        have hdone : ∃ ep s, k .user = .done .user ep s := by
          cases hku : k .user with
          | done er ep s =>
            rw [hku] at hk1
            have : er = .user := hk1.2.2.2.1.mpr rfl
            exact ⟨ep, s, by rw [this]⟩
          | call e' k' =>
            rw [hku] at hk1
            have := hk1.1
            cases e' <;> simp [EvOk] at this
        obtain ⟨ep, s, hdone⟩ := hdone
        obtain ⟨ff, vf, vl, vn⟩ := h
        dsimp only at hff hv
        subst hff; subst hv
        refine ⟨.user, ep, s, ⟨true, true, if (data.drop off).take len = [] then none else some off, len⟩,
          [.parserEvent (.obs (PEv.observe 0 data (.headerValue off len))), .parserEvent (.mem (w.mem b)), .parserEvent (.ret .user ep)], ?_, ?_⟩
        · simp only [runTree, M.bind_apply, M.emit_apply, findCallback, findHeaderValueCb, decide_eq_true hn, mAssert_true, Bool.not_false,
            if_true, M.pure_apply, M.world_apply, hdone]
          have hnil : (data.drop off).take len = [] ↔ len = 0 := by
            rw [← List.length_eq_zero_iff, hol]
          by_cases hl : len > 0
          · simp only [if_pos hl, if_neg (show ¬ ((data.drop off).take len = []) by rw [hnil]; omega)]
            simp
          · have : len = 0 := by omega
            subst this
            simp
        · rw [hrun]
          simp only [scan, PEv.observe, PEv.span, if_true, hol, Nat.zero_add]
          exact ⟨trivial, trivial, hs2, rfl⟩

end CoreHttp

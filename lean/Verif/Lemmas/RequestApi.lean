import Verif.Lemmas.Range
import Verif.Spec.Objects

/-! The request-building API on header blocks. -/

namespace CoreHttp
open Spec

theorem FrameBuf.refl (m : Mem) (b n : Nat) : FrameBuf m m b n := ⟨fun _ _ => rfl, rfl, rfl⟩

theorem FrameBuf.trans {m1 m2 m3 : Mem} {b n : Nat} (h1 : FrameBuf m1 m2 b n) (h2 : FrameBuf m2 m3 b n) :
    FrameBuf m1 m3 b n :=
  ⟨fun i hi => (h2.1 i hi).trans (h1.1 i hi), h2.2.1.trans h1.2.1, h2.2.2.trans h1.2.2⟩

theorem FrameBuf.splice {m : Mem} {b n off : Nat} {bs : Bytes} (h : off + bs.length ≤ n) (hn : n ≤ (m b).length) :
    FrameBuf m (m.set b (splice (m b) off bs)) b n := by
  refine ⟨fun i hi => Mem.set_other m _ hi, ?_, ?_⟩
  · rw [Mem.set_same, splice_length (by omega)]
  · rw [Mem.set_same, drop_splice (by omega) h]

theorem crlf_suffix_headerLine (s f v : Bytes) : crlf <:+ s ++ headerLine f v :=
  ⟨s ++ (f ++ [58, 32] ++ v), by simp [headerLine]⟩

theorem strip_crlf {s : Bytes} (h : crlf <:+ s) : stripBlankLine (s ++ crlf) = s := by
  obtain ⟨p, rfl⟩ := h
  unfold stripBlankLine
  rw [if_pos ⟨p, by simp⟩]
  rw [List.take_left' (by simp)]

theorem strip_length_le (s : Bytes) : (stripBlankLine s).length ≤ s.length := by
  unfold stripBlankLine; split
  · simp only [List.length_take]; omega
  · exact Nat.le_refl _

theorem headerLine_length (f v : Bytes) : (headerLine f v).length = f.length + v.length + 4 := by
  simp [headerLine]; omega

theorem headerLines_append (a b : List (Bytes × Bytes)) : headerLines (a ++ b) = headerLines a ++ headerLines b := by
  simp [headerLines]

theorem headerLines_cons (f v : Bytes) (hs : List (Bytes × Bytes)) :
    headerLines ((f, v) :: hs) = headerLine f v ++ headerLines hs := by
  simp [headerLines]

/-- Everything about one addHeader call on a well-formed object. -/
theorem addHeader_block {cfg : Cfg} {m : Mem} {h : ReqHeaders} {b : Nat} {f v : Bytes}
    (hb : h.pBuffer = some b) (hf : f ≠ []) (hv : v ≠ []) (h1 : h.headersLen ≤ h.bufferLen)
    (h2 : h.bufferLen ≤ (m b).length) (hw : (stripBlankLine (headerBlock m h)).length + f.length + v.length + 6 < 2 ^ cfg.sizeBits) :
    ∃ st h' m', addHeader cfg m h (some f) (some v) = .ok ⟨st, h', m'⟩ ∧
      h'.pBuffer = some b ∧ h'.bufferLen = h.bufferLen ∧ h'.headersLen ≤ h'.bufferLen ∧
      FrameBuf m m' b h.bufferLen ∧
      (st = .insufficientMemory ↔ h.bufferLen < (stripBlankLine (headerBlock m h)).length + f.length + v.length + 6) ∧
      (st = .insufficientMemory → h' = h ∧ m' = m) ∧
      (st = .success ↔ (stripBlankLine (headerBlock m h)).length + f.length + v.length + 6 ≤ h.bufferLen ∧
        CleanField f ∧ CleanValue v) ∧
      (st = .invalidCharacter ↔ (stripBlankLine (headerBlock m h)).length + f.length + v.length + 6 ≤ h.bufferLen ∧
        ¬ (CleanField f ∧ CleanValue v)) ∧
      (st = .invalidCharacter → h' = h ∧
        (m' b).take (stripBlankLine (headerBlock m h)).length = stripBlankLine (headerBlock m h)) ∧
      (st = .success → headerBlock m' h' = stripBlankLine (headerBlock m h) ++ headerLine f v ++ crlf ∧
        h'.headersLen = (headerBlock m' h').length) ∧
      (st = .success ∨ st = .insufficientMemory ∨ st = .invalidCharacter) := by
  have hk := kept_le (m b) h.headersLen
  have hkl : (stripBlankLine (headerBlock m h)).length = kept (m b) h.headersLen := by
    simp [headerBlock, hb, kept]
  have hst : stripBlankLine (headerBlock m h) = (m b).take (kept (m b) h.headersLen) := by
    simp [headerBlock, hb, stripBlankLine_take]
  rw [hkl] at hw
  rw [hkl, hst, addHeader_eq hb hf hv h1 h2 hw]
  generalize kept (m b) h.headersLen = k at hk
  have htw := takeWhile_length_le (p := okByte true) f
  have htv := takeWhile_length_le (p := okByte false) v
  by_cases hfit : h.bufferLen < k + f.length + v.length + 6
  · refine ⟨.insufficientMemory, h, m, by rw [if_pos hfit], hb, rfl, h1, FrameBuf.refl .., by simp [hfit],
      by simp, by simp; omega, by simp; omega, by simp, by simp, by simp⟩
  · by_cases hcf : CleanField f
    · by_cases hcv : CleanValue v
      · have hlen : k + (headerLine f v ++ crlf).length = k + f.length + v.length + 6 := by
          simp [headerLine_length]; omega
        refine ⟨.success, { h with headersLen := k + f.length + v.length + 6 },
          m.set b (splice (m b) k (headerLine f v ++ crlf)), ?_, hb, rfl, by simp; omega,
          FrameBuf.splice (by omega) h2, by simpa using hfit, by simp, by simp [hcf, hcv]; omega, by simp [hcf, hcv], by simp, ?_, by simp⟩
        · rw [if_neg hfit, if_neg (by simpa using hcf), if_neg (by simpa using hcv)]
        · intro _
          have e : headerBlock (m.set b (splice (m b) k (headerLine f v ++ crlf)))
              { h with headersLen := k + f.length + v.length + 6 } = (m b).take k ++ headerLine f v ++ crlf := by
            simp only [headerBlock, hb, Mem.set_same]
            rw [take_splice (by omega) (by omega), List.append_assoc]
          rw [e]
          refine ⟨rfl, ?_⟩
          simp only [List.length_append, List.length_take, headerLine_length, len_crlf]
          omega
      · refine ⟨.invalidCharacter, h, m.set b (splice (m b) k (f ++ [58, 32] ++ v.takeWhile (okByte false))), ?_, hb, rfl,
          h1, FrameBuf.splice (by simp; omega) h2, by simpa using hfit, by simp, by simp [hcv], by simp [hcv]; omega, ?_, by simp,
          by simp⟩
        · rw [if_neg hfit, if_neg (by simpa using hcf), if_pos hcv]
        · intro _
          refine ⟨rfl, ?_⟩
          rw [Mem.set_same, take_splice_le (by omega) (Nat.le_refl _)]
    · refine ⟨.invalidCharacter, h, m.set b (splice (m b) k (f.takeWhile (okByte true))), ?_, hb, rfl,
          h1, FrameBuf.splice (by omega) h2, by simpa using hfit, by simp, by simp [hcf], by simp [hcf]; omega, ?_, by simp,
          by simp⟩
      · rw [if_neg hfit, if_pos hcf]
      · intro _
        refine ⟨rfl, ?_⟩
        rw [Mem.set_same, take_splice_le (by omega) (Nat.le_refl _)]

/-! writeRequestLine -/

theorem requestLine_length (me p : Bytes) : (requestLine me p).length = me.length + p.length + 12 := by
  have : (ascii "HTTP/1.1").length = 8 := by decide
  simp [requestLine, this]; omega

/-- the six successive writes of writeRequestLine -/
theorem six_writes (blk me p : Bytes) (h : (requestLine me p).length ≤ blk.length) :
    (do let blk ← memWrite blk 0 me
        let blk ← memWrite blk me.length [SPACE]
        let blk ← memWrite blk (me.length + 1) p
        let blk ← memWrite blk (me.length + 1 + p.length) [SPACE]
        let blk ← memWrite blk (me.length + 1 + p.length + 1) PROTOCOL_VERSION
        memWrite blk (me.length + 1 + p.length + 1 + PROTOCOL_VERSION.length) LINE_SEPARATOR)
      = .ok (splice blk 0 (requestLine me p)) := by
  rw [requestLine_length] at h
  have key (x y : Bytes) (n : Nat) (hn : n = x.length) (hl : x.length + y.length ≤ blk.length) :
      memWrite (splice blk 0 x) n y = .ok (splice blk 0 (x ++ y)) := by
    subst hn
    rw [memWrite_ok (by rw [splice_length (by omega)]; omega)]
    have := splice_append (blk := blk) (off := 0) (a := x) (c := y) (by omega)
    simp only [Nat.zero_add] at this; rw [this]
  have hP : PROTOCOL_VERSION.length = 8 := by decide
  have hL : LINE_SEPARATOR.length = 2 := by decide
  rw [memWrite_ok (by omega)]; simp only [Run.ok_bind]
  rw [key me [SPACE] _ rfl (by simp; omega)]; simp only [Run.ok_bind]
  rw [key _ p _ (by simp <;> omega) (by simp; omega)]; simp only [Run.ok_bind]
  rw [key _ [SPACE] _ (by simp <;> omega) (by simp; omega)]; simp only [Run.ok_bind]
  rw [key _ PROTOCOL_VERSION _ (by simp <;> omega) (by simp [hP]; omega)]; simp only [Run.ok_bind]
  rw [key _ LINE_SEPARATOR _ (by simp <;> omega) (by simp [hP, hL]; omega)]
  rfl

theorem writeRequestLine_eq {cfg : Cfg} {m : Mem} {h : ReqHeaders} {b : Nat} {me : Bytes} {pPath : Option Bytes}
    (hb : h.pBuffer = some b) (hl : h.headersLen = 0) (hme : me ≠ []) (h2 : h.bufferLen ≤ (m b).length)
    (hw : (requestLine me (pathOrDefault pPath)).length < 2 ^ cfg.sizeBits) :
    writeRequestLine cfg m h (some me) pPath =
      if h.bufferLen < (requestLine me (pathOrDefault pPath)).length then .ok ⟨.insufficientMemory, h, m⟩
      else .ok ⟨.success, { h with headersLen := (requestLine me (pathOrDefault pPath)).length },
        m.set b (splice (m b) 0 (requestLine me (pathOrDefault pPath)))⟩ := by
  have hml : me.length ≠ 0 := by simpa using hme
  rw [requestLine_length] at hw
  unfold writeRequestLine
  rw [hb]
  simp only [decide_eq_true hml, cAssert_true, Run.ok_bind, hl, len_pv, len_ls]
  generalize hp : pathOrDefault pPath = p at hw
  have hsz : szAdd cfg (szAdd cfg (szAdd cfg (szAdd cfg (szAdd cfg me.length 1) 1) 8) 2) p.length
      = (requestLine me p).length := by
    rw [requestLine_length]
    rw [szAdd_eq (a := me.length) (by omega), szAdd_eq (a := me.length + 1) (by omega),
      szAdd_eq (a := me.length + 1 + 1) (by omega), szAdd_eq (a := me.length + 1 + 1 + 8) (by omega), szAdd_eq (by omega)]
    omega
  rw [hsz, szAdd_eq (by rw [requestLine_length]; omega)]
  simp only [Nat.add_zero]
  by_cases hfit : h.bufferLen < (requestLine me p).length
  · rw [if_pos hfit, if_pos hfit]
  · rw [if_neg hfit, if_neg hfit]
    have six := six_writes (m b) me p (by omega)
    have six' := congrArg (fun x => x >>= fun blk => (Run.ok (⟨.success, { h with headersLen := (requestLine me p).length }, m.set b blk⟩ : ReqOut))) six
    simp only [Run.bind_assoc', Run.ok_bind, len_pv, hb] at six'
    exact six'

/-! Initialisation as a sequence of additions -/

/-- Add headers one by one while the status is success. -/
def addAll (cfg : Cfg) : ReqOut → List (Bytes × Bytes) → Run ReqOut
  | r, [] => .ok r
  | r, (f, v) :: rest => do
    let r ← (if r.status = .success then addHeader cfg r.mem r.hdrs (some f) (some v) else .ok r)
    addAll cfg r rest

/-- What Init writes after the request line. -/
def initHeaders (cfg : Cfg) (flags : UInt32) (host : Bytes) : List (Bytes × Bytes) :=
  (if REQUEST_NO_USER_AGENT_FLAG &&& flags = 0 then [(USER_AGENT_FIELD, cfg.userAgent)] else []) ++
  ([(HOST_FIELD, host)] ++
  (if REQUEST_KEEP_ALIVE_FLAG &&& flags ≠ 0 then [(CONNECTION_FIELD, KEEP_ALIVE_VALUE)] else []))

theorem init_eq {cfg : Cfg} {m : Mem} {h : ReqHeaders} {b : Nat} {info : ReqInfo} {me ho : Bytes}
    (hb : h.pBuffer = some b) (hm : info.pMethod = some me) (hh : info.pHost = some ho) (hme : me ≠ []) (hho : ho ≠ []) :
    HTTPClient_InitializeRequestHeaders cfg m (some h) (some info) =
      (do let r ← writeRequestLine cfg m { h with headersLen := 0 } info.pMethod info.pPath
          let r ← addAll cfg r (initHeaders cfg info.reqFlags ho)
          .ok (r.status, some r.hdrs, r.mem)) := by
  have hml : me.length ≠ 0 := by simpa using hme
  have hhl : ho.length ≠ 0 := by simpa using hho
  unfold HTTPClient_InitializeRequestHeaders
  simp only [hb, hm, hh, hml, hhl, if_false]
  congr 1; funext r
  unfold initHeaders
  by_cases hu : REQUEST_NO_USER_AGENT_FLAG &&& info.reqFlags = 0 <;>
  by_cases hk : REQUEST_KEEP_ALIVE_FLAG &&& info.reqFlags = 0 <;>
  simp [hu, hk, addAll, Run.bind_assoc']

/-- The object holds block `blk`. -/
structure HasBlock (cfg : Cfg) (m : Mem) (h : ReqHeaders) (b : Nat) (blk : Bytes) : Prop where
  buf : h.pBuffer = some b
  len : h.headersLen = blk.length
  le : h.headersLen ≤ h.bufferLen
  real : h.bufferLen ≤ (m b).length
  eq : headerBlock m h = blk

theorem addAll_stop (cfg : Cfg) (r : ReqOut) (hs : List (Bytes × Bytes)) (h : r.status ≠ .success) :
    addAll cfg r hs = .ok r := by
  induction hs with
  | nil => rfl
  | cons p hs ih => simp [addAll, h, ih]

theorem strip_clean_line (s : Bytes) (h : crlf <:+ s) (blk : Bytes) (hb : blk = s ++ crlf) : stripBlankLine blk = s := by
  subst hb; exact strip_crlf h

/-- Adding a list of non-empty headers. -/
theorem addAll_spec {cfg : Cfg} (hs : List (Bytes × Bytes)) :
    ∀ (m : Mem) (h : ReqHeaders) (b : Nat) (blk s : Bytes),
    HasBlock cfg m h b blk → stripBlankLine blk = s → crlf <:+ s →
    (∀ p ∈ hs, p.1 ≠ [] ∧ p.2 ≠ []) →
    s.length + (headerLines hs).length + 2 < 2 ^ cfg.sizeBits →
    ∃ st h' m', addAll cfg ⟨.success, h, m⟩ hs = .ok ⟨st, h', m'⟩ ∧
      h'.pBuffer = some b ∧ h'.bufferLen = h.bufferLen ∧ h'.headersLen ≤ h'.bufferLen ∧
      FrameBuf m m' b h.bufferLen ∧
      (st = .success ∨ st = .insufficientMemory ∨ st = .invalidCharacter) ∧
      (hs ≠ [] → st = .success → HasBlock cfg m' h' b (s ++ headerLines hs ++ crlf)) ∧
      (hs ≠ [] → (st = .success ↔ s.length + (headerLines hs).length + 2 ≤ h.bufferLen ∧
          ∀ p ∈ hs, CleanField p.1 ∧ CleanValue p.2)) ∧
      ((∀ p ∈ hs, CleanField p.1 ∧ CleanValue p.2) → st ≠ .invalidCharacter) ∧
      (s.length + (headerLines hs).length + 2 ≤ h.bufferLen → st ≠ .insufficientMemory) := by
  induction hs with
  | nil =>
    intro m h b blk s hB _ _ _ _
    exact ⟨.success, h, m, rfl, hB.buf, rfl, hB.le, FrameBuf.refl .., by simp, by simp, by simp, by simp, by simp⟩
  | cons p hs ih =>
    obtain ⟨f, v⟩ := p
    intro m h b blk s hB hstrip hs_crlf hne hw
    have hfv := hne (f, v) (by simp)
    have hsl := strip_length_le blk
    rw [hstrip] at hsl
    rw [headerLines_cons, List.length_append, headerLine_length] at hw
    obtain ⟨st, h1, m1, hadd, hb1, hbl1, hle1, hfr1, hins, hinseq, hsucc, hinv, hinveq, hblock, hcase⟩ :=
      addHeader_block (cfg := cfg) (m := m) (h := h) (b := b) (f := f) (v := v) hB.buf hfv.1 hfv.2 hB.le hB.real
        (by rw [hB.eq, hstrip]; omega)
    rw [hB.eq, hstrip] at hins hsucc hinv hinveq hblock
    unfold addAll
    simp only [if_true, hadd, Run.ok_bind]
    by_cases hst : st = .success
    · subst hst
      have hblk := hblock rfl
      have hB1 : HasBlock cfg m1 h1 b (s ++ headerLine f v ++ crlf) :=
        ⟨hb1, by rw [hblk.2, hblk.1], hle1, by rw [hbl1, hfr1.2.1]; exact hB.real, hblk.1⟩
      have hs1 : crlf <:+ s ++ headerLine f v := crlf_suffix_headerLine s f v
      obtain ⟨st', h', m', e, hb', hbl', hle', hfr', hcase', hB', hiff', hnoinv', hnoins'⟩ :=
        ih m1 h1 b _ _ hB1 (strip_crlf hs1) hs1 (fun p hp => hne p (by simp [hp]))
          (by simp only [List.length_append, headerLine_length]; omega)
      have hfit := (hsucc.mp rfl)
      refine ⟨st', h', m', e, hb', hbl'.trans hbl1, hle', ?_, hcase', ?_, ?_, ?_, ?_⟩
      · rw [hbl1] at hfr'
        exact hfr1.trans hfr'
      · intro _ hok
        cases hs with
        | nil =>
          simp only [addAll, Run.ok.injEq, ReqOut.mk.injEq] at e
          obtain ⟨_, rfl, rfl⟩ := e
          simpa [headerLines] using hB1
        | cons q qs =>
          have := hB' (by simp) hok
          rw [headerLines_cons f v]
          simpa [List.append_assoc] using this
      · intro _
        rw [hbl1] at hiff'
        cases hs with
        | nil =>
          simp only [addAll, Run.ok.injEq, ReqOut.mk.injEq] at e
          obtain ⟨rfl, _, _⟩ := e
          simp only [true_iff]
          refine ⟨?_, ?_⟩
          · simp [headerLines, headerLine_length]; omega
          · simpa using hfit.2
        | cons q qs =>
          rw [hiff' (by simp)]
          rw [headerLines_cons f v]
          constructor
          · rintro ⟨a, c⟩
            refine ⟨by simp only [List.length_append] at a ⊢; omega, ?_⟩
            intro p hp
            rcases List.mem_cons.mp hp with rfl | hp
            · exact hfit.2
            · exact c p hp
          · rintro ⟨a, c⟩
            exact ⟨by simp only [List.length_append] at a ⊢; omega, fun p hp => c p (List.mem_cons_of_mem _ hp)⟩
      · intro hc
        exact hnoinv' (fun p hp => hc p (List.mem_cons_of_mem _ hp))
      · intro hfit2
        refine hnoins' ?_
        rw [headerLines_cons, List.length_append] at hfit2
        rw [hbl1]
        simp only [List.length_append]
        omega
    · rw [addAll_stop cfg ⟨st, h1, m1⟩ hs hst]
      refine ⟨st, h1, m1, rfl, hb1, hbl1, hle1, hfr1, hcase, fun _ h => absurd h hst, ?_, ?_, ?_⟩
      · intro _
        refine ⟨fun h => absurd h hst, ?_⟩
        rintro ⟨a, c⟩
        rw [headerLines_cons, List.length_append, headerLine_length] at a
        exact hsucc.mpr ⟨by omega, c (f, v) (by simp)⟩
      · intro hc hinvst
        exact (hinv.mp hinvst).2 (hc (f, v) (by simp))
      · intro hfit2 hi
        have := hins.mp hi
        rw [headerLines_cons, List.length_append, headerLine_length] at hfit2
        omega

theorem requestLine_crlf (me p : Bytes) : crlf <:+ requestLine me p :=
  ⟨me ++ [32] ++ p ++ [32] ++ ascii "HTTP/1.1", by simp [requestLine]⟩

/-- The request line does not end in a blank line. -/
theorem strip_requestLine (me p : Bytes) : stripBlankLine (requestLine me p) = requestLine me p := by
  unfold stripBlankLine
  rw [if_neg]
  rintro ⟨q, hq⟩
  have e : requestLine me p = (me ++ [32] ++ p ++ [32] ++ ascii "HTTP/1.") ++ ascii "1" ++ crlf := by
    have : ascii "HTTP/1.1" = ascii "HTTP/1." ++ ascii "1" := by decide
    simp [requestLine, this]
  rw [e, ← List.append_assoc] at hq
  have h1 := List.append_inj_left' hq rfl
  have h2 := congrArg List.getLast? h1
  have e1 : (ascii "1") = [49] := by decide
  rw [e1, List.getLast?_concat, show crlf = [13] ++ [10] from rfl, ← List.append_assoc, List.getLast?_concat] at h2
  simp at h2

/-- Init in full. -/
theorem init_spec {cfg : Cfg} {m : Mem} {h : ReqHeaders} {b : Nat} {info : ReqInfo} {me ho : Bytes}
    (hb : h.pBuffer = some b) (hm : info.pMethod = some me) (hh : info.pHost = some ho) (hme : me ≠ []) (hho : ho ≠ [])
    (hua : REQUEST_NO_USER_AGENT_FLAG &&& info.reqFlags = 0 → cfg.userAgent ≠ [])
    (h2 : h.bufferLen ≤ (m b).length)
    (hw : (requestBlock (requestLine me (pathOrDefault info.pPath)) (initHeaders cfg info.reqFlags ho)).length < 2 ^ cfg.sizeBits) :
    ∃ st h' m', HTTPClient_InitializeRequestHeaders cfg m (some h) (some info) = .ok (st, some h', m') ∧
      h'.pBuffer = some b ∧ h'.bufferLen = h.bufferLen ∧ h'.headersLen ≤ h'.bufferLen ∧
      FrameBuf m m' b h.bufferLen ∧
      (st = .success ∨ st = .insufficientMemory ∨ st = .invalidCharacter) ∧
      (st = .success →
        HasBlock cfg m' h' b (requestBlock (requestLine me (pathOrDefault info.pPath)) (initHeaders cfg info.reqFlags ho))) ∧
      (st = .success ↔
        (requestBlock (requestLine me (pathOrDefault info.pPath)) (initHeaders cfg info.reqFlags ho)).length ≤ h.bufferLen ∧
        ∀ p ∈ initHeaders cfg info.reqFlags ho, CleanField p.1 ∧ CleanValue p.2) ∧
      ((∀ p ∈ initHeaders cfg info.reqFlags ho, CleanField p.1 ∧ CleanValue p.2) → st ≠ .invalidCharacter) ∧
      ((requestBlock (requestLine me (pathOrDefault info.pPath)) (initHeaders cfg info.reqFlags ho)).length ≤ h.bufferLen →
        st ≠ .insufficientMemory) := by
  rw [init_eq hb hm hh hme hho, hm]
  have hne : initHeaders cfg info.reqFlags ho ≠ [] := by simp [initHeaders]
  have hnonempty : ∀ p ∈ initHeaders cfg info.reqFlags ho, p.1 ≠ [] ∧ p.2 ≠ [] := by
    intro p hp
    simp only [initHeaders, List.mem_append] at hp
    rcases hp with hp | hp | hp
    · split at hp
      · rename_i hu
        simp at hp; subst hp; exact ⟨show USER_AGENT_FIELD ≠ [] by decide, hua hu⟩
      · simp at hp
    · simp at hp; subst hp; exact ⟨show HOST_FIELD ≠ [] by decide, hho⟩
    · split at hp
      · simp at hp; subst hp; exact ⟨by decide, by decide⟩
      · simp at hp
  generalize hrl : requestLine me (pathOrDefault info.pPath) = rl at hw ⊢
  generalize initHeaders cfg info.reqFlags ho = hs at hne hnonempty hw ⊢
  simp only [requestBlock, List.length_append, len_crlf] at hw
  have hwl := writeRequestLine_eq (cfg := cfg) (m := m) (h := { h with headersLen := 0 }) (b := b) (me := me)
    (pPath := info.pPath) hb rfl hme h2 (by rw [hrl]; omega)
  rw [hrl] at hwl
  rw [hwl]
  by_cases hfit : h.bufferLen < rl.length
  · rw [if_pos hfit]
    simp only [Run.ok_bind]
    rw [addAll_stop _ _ _ (by simp)]
    refine ⟨.insufficientMemory, _, m, rfl, hb, rfl, by simp, FrameBuf.refl .., by simp, by simp, ?_, by simp, ?_⟩
    · simp only [reduceCtorEq, requestBlock, List.length_append, len_crlf, false_iff]
      omega
    · simp only [requestBlock, List.length_append, len_crlf]
      omega
  · rw [if_neg hfit]
    simp only [Run.ok_bind]
    have htake : (splice (m b) 0 rl).take rl.length = rl := by
      rw [take_splice (by omega) (by simp)]; simp
    have hB : HasBlock cfg (m.set b (splice (m b) 0 rl)) { h with headersLen := rl.length } b rl :=
      ⟨hb, rfl, by simpa using hfit, by simp only [Mem.set_same]; rw [splice_length (by omega)]; exact h2,
        by simp only [headerBlock, hb, Mem.set_same]; exact htake⟩
    have hstrip : stripBlankLine rl = rl := by rw [← hrl]; exact strip_requestLine _ _
    obtain ⟨st, h', m', e, hb', hbl', hle', hfr', hcase', hB', hiff', hnoinv', hnoins'⟩ :=
      addAll_spec hs _ _ b rl rl hB hstrip (by rw [← hrl]; exact requestLine_crlf _ _) hnonempty (by omega)
    rw [e]
    simp only [Run.ok_bind]
    refine ⟨st, h', m', rfl, hb', hbl', hle', ?_, hcase', ?_, ?_, hnoinv', ?_⟩
    · exact FrameBuf.trans (FrameBuf.splice (by omega) h2) hfr'
    · intro hok; exact hB' hne hok
    · rw [hiff' hne]
      simp only [requestBlock, List.length_append, len_crlf]
    · intro hf
      refine hnoins' ?_
      simpa only [requestBlock, List.length_append, len_crlf] using hf

end CoreHttp

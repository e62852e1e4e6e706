import Verif.Model.Request
import Verif.Spec.Request
import Verif.Lemmas.Mem
import Verif.Lemmas.Decimal

/-! Characterisation of addHeader and friends. -/

namespace CoreHttp
open Spec

/-- byte accepted by httpHeaderStrncpy -/
def okByte (isField : Bool) (c : UInt8) : Bool := !(c == CR) && !(c == LF) && !(isField && c == COLON)

theorem strncpy_step_ok (blk : Bytes) (off : Nat) (c : UInt8) (cs : Bytes) (isField : Bool) (h : okByte isField c = true) :
    httpHeaderStrncpy blk off (c :: cs) isField = (memWrite blk off [c] >>= fun b => httpHeaderStrncpy b (off + 1) cs isField) := by
  simp only [okByte, Bool.and_eq_true, Bool.not_eq_true', beq_eq_false_iff_ne, Bool.and_eq_false_iff] at h
  conv => lhs; unfold httpHeaderStrncpy
  rw [if_neg h.1.1, if_neg h.1.2, if_neg]
  rintro ⟨rfl, rfl⟩
  simp at h

theorem strncpy_step_bad (blk : Bytes) (off : Nat) (c : UInt8) (cs : Bytes) (isField : Bool) (h : okByte isField c = false) :
    httpHeaderStrncpy blk off (c :: cs) isField = .ok (false, blk) := by
  unfold httpHeaderStrncpy
  split
  · rfl
  · split
    · rfl
    · split
      · rfl
      · rename_i h1 h2 h3
        simp [okByte, h1, h2] at h
        exact absurd h h3

theorem strncpy_eq (blk : Bytes) (off : Nat) (src : Bytes) (isField : Bool) (h : off ≤ blk.length) :
    httpHeaderStrncpy blk off src isField =
      (memWrite blk off (src.takeWhile (okByte isField)) >>= fun b => .ok (src.all (okByte isField), b)) := by
  induction src generalizing blk off with
  | nil => simp [httpHeaderStrncpy, memWrite, h, splice_nil]
  | cons c cs ih =>
    cases hc : okByte isField c with
    | false =>
      rw [strncpy_step_bad _ _ _ _ _ hc]
      simp [List.takeWhile, hc, memWrite, h, splice_nil]
    | true =>
      rw [strncpy_step_ok _ _ _ _ _ hc]
      have h1 := memWrite_memWrite blk off [c] (cs.takeWhile (okByte isField))
        (fun b => .ok (cs.all (okByte isField), b))
      simp only [List.length_cons, List.length_nil, List.cons_append, List.nil_append, Nat.zero_add] at h1
      simp only [List.takeWhile, hc, List.all_cons, Bool.true_and]
      rw [← h1]
      by_cases hl : off + 1 ≤ blk.length
      · rw [memWrite_ok (by simpa using hl)]
        simp only [Run.ok_bind]
        rw [ih]
        rw [splice_length (by simpa using hl)]; exact hl
      · simp [memWrite, hl]

theorem takeWhile_all {p : UInt8 → Bool} {l : Bytes} (h : l.all p = true) : l.takeWhile p = l := by
  induction l with
  | nil => rfl
  | cons a l ih => simp at h; simp [List.takeWhile, h.1]; exact ih (by simpa using h.2)

theorem takeWhile_length_le {p : UInt8 → Bool} (l : Bytes) : (l.takeWhile p).length ≤ l.length := by
  exact (List.takeWhile_sublist p).length_le

theorem cleanField_iff (f : Bytes) : f.all (okByte true) = true ↔ CleanField f := by
  simp [List.all_eq_true, okByte, CleanField, CR, LF, COLON, and_assoc]

theorem cleanValue_iff (v : Bytes) : v.all (okByte false) = true ↔ CleanValue v := by
  simp [List.all_eq_true, okByte, CleanValue, CR, LF]

/-! size_t arithmetic without wrap -/

theorem szAdd_eq {cfg : Cfg} {a b : Nat} (h : a + b < 2 ^ cfg.sizeBits) : szAdd cfg a b = a + b := by
  simp [szAdd, Nat.mod_eq_of_lt h]

@[simp] theorem len_fs : FIELD_SEPARATOR.length = 2 := by decide
@[simp] theorem len_ls : LINE_SEPARATOR.length = 2 := by decide
@[simp] theorem len_he : HEADER_END_INDICATOR.length = 4 := by decide
@[simp] theorem len_pv : PROTOCOL_VERSION.length = 8 := by decide
@[simp] theorem len_crlf : crlf.length = 2 := by decide

theorem toAddLen_eq {cfg : Cfg} {f v : Nat} (h : f + v + 6 < 2 ^ cfg.sizeBits) :
    szAdd cfg (szAdd cfg (szAdd cfg (szAdd cfg f 2) v) 2) 2 = f + v + 6 := by
  rw [szAdd_eq (a := f) (by omega), szAdd_eq (a := f + 2) (by omega), szAdd_eq (a := f + 2 + v) (by omega),
    szAdd_eq (by omega)]; omega

/-! backtracking -/

theorem tail_eq_iff_suffix (l s : Bytes) (h : s.length ≤ l.length) :
    l.drop (l.length - s.length) = s ↔ s <:+ l := by
  constructor
  · intro e
    have := List.take_append_drop (l.length - s.length) l
    rw [e] at this
    exact ⟨_, this⟩
  · rintro ⟨p, rfl⟩; simp

/-- kept length after backtracking -/
def kept (blk : Bytes) (n : Nat) : Nat := (stripBlankLine (blk.take n)).length

theorem kept_le (blk : Bytes) (n : Nat) : kept blk n ≤ n := by
  unfold kept stripBlankLine
  split <;> simp only [List.length_take] <;> omega

theorem stripBlankLine_take (blk : Bytes) (n : Nat) : stripBlankLine (blk.take n) = blk.take (kept blk n) := by
  unfold kept stripBlankLine
  split
  · rw [List.take_take]
    simp only [List.length_take]
    congr 1; omega
  · simp only [List.length_take]
    rw [← List.take_take, List.take_of_length_le (Nat.le_refl blk.length)]

theorem backtrack_eq (blk : Bytes) (n : Nat) (h : n ≤ blk.length) :
    (if HEADER_END_INDICATOR.length ≤ n then (do
        let tail ← memRead blk (n - HEADER_END_INDICATOR.length) HEADER_END_INDICATOR.length
        if tail = HEADER_END_INDICATOR then .ok (n - LINE_SEPARATOR.length) else .ok n)
      else .ok n : Run Nat) = .ok (kept blk n) := by
  have hlen : (blk.take n).length = n := by simp; omega
  have hc : HEADER_END_INDICATOR = crlf ++ crlf := rfl
  simp only [len_he, len_ls]
  by_cases h4 : 4 ≤ n
  · rw [if_pos h4, memRead_ok (by omega)]
    simp only [Run.ok_bind]
    have key : (blk.drop (n - 4)).take 4 = (blk.take n).drop ((blk.take n).length - (crlf ++ crlf).length) := by
      rw [hlen, List.drop_take]
      simp only [List.length_append, len_crlf]
      congr 1; omega
    rw [key, hc]
    have hs := tail_eq_iff_suffix (blk.take n) (crlf ++ crlf) (by rw [hlen]; simpa using h4)
    unfold kept stripBlankLine
    by_cases hsuf : crlf ++ crlf <:+ blk.take n
    · rw [if_pos (hs.mpr hsuf), if_pos hsuf]
      simp only [List.length_take]; congr 1; omega
    · rw [if_neg (fun e => hsuf (hs.mp e)), if_neg hsuf, hlen]
  · rw [if_neg h4]
    unfold kept stripBlankLine
    rw [if_neg, hlen]
    intro hsuf
    have := hsuf.length_le
    rw [hlen] at this; simp at this; omega

/-! The complete behaviour of addHeader when no size wraps. -/

theorem addHeader_eq {cfg : Cfg} {m : Mem} {h : ReqHeaders} {b : Nat} {f v : Bytes}
    (hb : h.pBuffer = some b) (hf : f ≠ []) (hv : v ≠ []) (h1 : h.headersLen ≤ h.bufferLen)
    (h2 : h.bufferLen ≤ (m b).length) (hw : kept (m b) h.headersLen + f.length + v.length + 6 < 2 ^ cfg.sizeBits) :
    addHeader cfg m h (some f) (some v) =
      if h.bufferLen < kept (m b) h.headersLen + f.length + v.length + 6 then .ok ⟨.insufficientMemory, h, m⟩
      else if ¬ CleanField f then
        .ok ⟨.invalidCharacter, h, m.set b (splice (m b) (kept (m b) h.headersLen) (f.takeWhile (okByte true)))⟩
      else if ¬ CleanValue v then
        .ok ⟨.invalidCharacter, h, m.set b (splice (m b) (kept (m b) h.headersLen)
          (f ++ [58, 32] ++ v.takeWhile (okByte false)))⟩
      else .ok ⟨.success, { h with headersLen := kept (m b) h.headersLen + f.length + v.length + 6 },
        m.set b (splice (m b) (kept (m b) h.headersLen) (headerLine f v ++ crlf))⟩ := by
  have hk := kept_le (m b) h.headersLen
  have hfl : f.length ≠ 0 := by simpa using hf
  have hvl : v.length ≠ 0 := by simpa using hv
  unfold addHeader
  rw [hb]
  simp only [decide_eq_true hfl, decide_eq_true hvl, cAssert_true, Run.ok_bind]
  rw [backtrack_eq (m b) h.headersLen (by omega)]
  simp only [Run.ok_bind, len_fs, len_ls]
  generalize kept (m b) h.headersLen = k at hk hw ⊢
  rw [toAddLen_eq (by omega), szAdd_eq (by omega)]
  by_cases hfit : h.bufferLen < k + f.length + v.length + 6
  · rw [if_neg (by omega), if_pos hfit]
  · rw [if_pos (by omega), if_neg hfit]
    rw [strncpy_eq _ _ _ _ (by omega)]
    have htw := takeWhile_length_le (p := okByte true) f
    have htv := takeWhile_length_le (p := okByte false) v
    rw [memWrite_ok (by omega)]
    simp only [Run.ok_bind]
    by_cases hcf : CleanField f
    · have hcf' := (cleanField_iff f).mpr hcf
      rw [hcf', takeWhile_all hcf', if_neg (by simp), if_neg (by simpa using hcf)]
      rw [memWrite_ok (by rw [splice_length (by omega)]; simp; omega)]
      rw [splice_append (by simp; omega)]
      simp only [Run.ok_bind]
      rw [strncpy_eq _ _ _ _ (by rw [splice_length (by simp; omega)]; omega)]
      rw [memWrite_ok (by rw [splice_length (by simp; omega)]; omega)]
      simp only [Run.ok_bind]
      have e1 : k + f.length + 2 = k + (f ++ FIELD_SEPARATOR).length := by simp; omega
      rw [e1, splice_append (by simp; omega)]
      by_cases hcv : CleanValue v
      · have hcv' := (cleanValue_iff v).mpr hcv
        rw [hcv', takeWhile_all hcv', if_neg (by simp), if_neg (by simpa using hcv)]
        have e2 : k + (f ++ FIELD_SEPARATOR).length + v.length = k + (f ++ FIELD_SEPARATOR ++ v).length := by simp; omega
        rw [e2, memWrite_ok (by rw [splice_length (by simp; omega)]; simp; omega), splice_append (by simp; omega)]
        simp only [Run.ok_bind]
        have e3 : f ++ FIELD_SEPARATOR ++ v ++ HEADER_END_INDICATOR = headerLine f v ++ crlf := by
          simp only [headerLine, List.append_assoc]; rfl
        rw [e3, show k + f.length + v.length + 6 = k + (f.length + v.length + 6) by omega]
      · have : v.all (okByte false) = false := by
          rw [← Bool.not_eq_true, cleanValue_iff]; exact hcv
        rw [this, if_pos rfl, if_pos hcv]
        rfl
    · have : f.all (okByte true) = false := by
        rw [← Bool.not_eq_true, cleanField_iff]; exact hcf
      rw [this, if_pos rfl, if_pos hcf]

end CoreHttp

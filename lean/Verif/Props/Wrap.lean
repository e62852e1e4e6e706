import Verif.Props.Request

/-! # C11: exactly when HTTPClient_AddHeader leaves its buffer -/

namespace CoreHttp.Props
open CoreHttp Spec
variable {cfg : Cfg} {m : Mem} {h : ReqHeaders} {b : Nat} {f v : Bytes}

/-- The sum the space check computes is the true sum modulo the size of size_t. -/
theorem wrapped_sum (cfg : Cfg) (k x y : Nat) :
    szAdd cfg k (szAdd cfg (szAdd cfg (szAdd cfg (szAdd cfg x 2) y) 2) 2) = (k + x + y + 6) % 2 ^ cfg.sizeBits := by
  unfold szAdd
  simp only [Nat.add_mod_mod, Nat.mod_add_mod]
  congr 1
  omega

theorem memWrite_fault {blk : Bytes} {off : Nat} {bs : Bytes} (h : blk.length < off + bs.length) : memWrite blk off bs = .fault .oob := by
  unfold memWrite; rw [if_neg (by omega)]

/-- **C11, partial: the exact condition.** Let `total` be the length the header block would have with the new line. HTTPClient_AddHeader, with any field and value,
however long,
1. touches nothing outside the first bufferLen bytes and returns, when `total` fits in size_t;
2. returns HTTPInsufficientMemory, and changes nothing, when `total` modulo the size of size_t is more than bufferLen;
3. in all other cases - `total` does not fit in size_t and what is left of it is no more than bufferLen - runs past the end of the memory the buffer lies in, if
field and value are valid.
(Missing for the full property: case 3 must not happen. It cannot when the lengths of field and value are those of strings that do not overlap.) -/
theorem C11_exact_partial (hbuf : HasBuf m h b) (hle : h.headersLen ≤ h.bufferLen) (hblk : (m b).length < 2 ^ cfg.sizeBits) (hf : f ≠ []) (hv : v ≠ []) :
    ((stripBlankLine (headerBlock m h)).length + f.length + v.length + 6 < 2 ^ cfg.sizeBits →
      ∃ st h' m', HTTPClient_AddHeader cfg m (some h) (some f) (some v) = .ok (st, some h', m') ∧ h'.pBuffer = h.pBuffer ∧ h'.bufferLen = h.bufferLen ∧
        FrameBuf m m' b h.bufferLen) ∧
    (h.bufferLen < ((stripBlankLine (headerBlock m h)).length + f.length + v.length + 6) % 2 ^ cfg.sizeBits →
      HTTPClient_AddHeader cfg m (some h) (some f) (some v) = .ok (.insufficientMemory, some h, m)) ∧
    (2 ^ cfg.sizeBits ≤ (stripBlankLine (headerBlock m h)).length + f.length + v.length + 6 →
      ((stripBlankLine (headerBlock m h)).length + f.length + v.length + 6) % 2 ^ cfg.sizeBits ≤ h.bufferLen → CleanField f → CleanValue v →
      HTTPClient_AddHeader cfg m (some h) (some f) (some v) = .fault .oob) := by
  have hk : (stripBlankLine (headerBlock m h)).length = kept (m b) h.headersLen := by simp [headerBlock, hbuf.1, kept]
  have hkl := kept_le (m b) h.headersLen
  have h2 := hbuf.2
  have hfl : f.length ≠ 0 := by simpa using hf
  have hvl : v.length ≠ 0 := by simpa using hv
  rw [hk, addHeader_api hbuf.1 hf hv hle]
  have hform : addHeader cfg m h (some f) (some v) =
      if (kept (m b) h.headersLen + f.length + v.length + 6) % 2 ^ cfg.sizeBits ≤ h.bufferLen then do
        let (okf, blk) ← httpHeaderStrncpy (m b) (kept (m b) h.headersLen) f true
        if okf = false then .ok ⟨.invalidCharacter, h, m.set b blk⟩
        else do
          let blk ← memWrite blk (kept (m b) h.headersLen + f.length) FIELD_SEPARATOR
          let (okv, blk) ← httpHeaderStrncpy blk (kept (m b) h.headersLen + f.length + 2) v false
          if okv = false then .ok ⟨.invalidCharacter, h, m.set b blk⟩
          else do
            let blk ← memWrite blk (kept (m b) h.headersLen + f.length + 2 + v.length) HEADER_END_INDICATOR
            .ok ⟨.success, { h with headersLen := (kept (m b) h.headersLen + f.length + v.length + 6) % 2 ^ cfg.sizeBits }, m.set b blk⟩
      else .ok ⟨.insufficientMemory, h, m⟩ := by
    unfold addHeader
    rw [hbuf.1]
    simp only [decide_eq_true hfl, decide_eq_true hvl, cAssert_true, Run.ok_bind]
    rw [backtrack_eq (m b) h.headersLen (by omega)]
    simp only [Run.ok_bind, len_fs, len_ls, wrapped_sum]
  refine ⟨fun hw => ?_, fun hw => ?_, fun hw hw' hcf hcv => ?_⟩
  · rw [addHeader_eq hbuf.1 hf hv hle h2 hw]
    by_cases hfit : h.bufferLen < kept (m b) h.headersLen + f.length + v.length + 6
    · rw [if_pos hfit]
      exact ⟨_, _, _, rfl, rfl, rfl, FrameBuf.refl _ _ _⟩
    · rw [if_neg hfit]
      have htw := takeWhile_length_le (p := okByte true) f
      have htv := takeWhile_length_le (p := okByte false) v
      by_cases hcf : CleanField f
      · rw [if_neg (by simpa using hcf)]
        by_cases hcv : CleanValue v
        · rw [if_neg (by simpa using hcv)]
          refine ⟨_, _, _, rfl, rfl, rfl, FrameBuf.splice ?_ h2⟩
          simp only [List.length_append, headerLine_length, crlf, List.length_cons, List.length_nil]; omega
        · rw [if_pos hcv]
          refine ⟨_, _, _, rfl, rfl, rfl, FrameBuf.splice ?_ h2⟩
          simp only [List.length_append, List.length_cons, List.length_nil]; omega
      · rw [if_pos hcf]
        exact ⟨_, _, _, rfl, rfl, rfl, FrameBuf.splice (by omega) h2⟩
  · rw [hform, if_neg (by omega)]; rfl
  · rw [hform, if_pos hw', strncpy_eq _ _ _ _ (by omega), takeWhile_all ((cleanField_iff f).mpr hcf), (cleanField_iff f).mpr hcf]
    by_cases h1 : (m b).length < kept (m b) h.headersLen + f.length
    · rw [memWrite_fault h1]; rfl
    rw [memWrite_ok (by omega)]
    simp only [Run.ok_bind, Bool.true_eq_false, if_false]
    have hl1 : (splice (m b) (kept (m b) h.headersLen) f).length = (m b).length := splice_length (by omega)
    by_cases h3 : (m b).length < kept (m b) h.headersLen + f.length + 2
    · rw [memWrite_fault (by rw [hl1, len_fs]; exact h3)]; rfl
    rw [memWrite_ok (by rw [hl1, len_fs]; omega)]
    simp only [Run.ok_bind]
    have hl2 : (splice (splice (m b) (kept (m b) h.headersLen) f) (kept (m b) h.headersLen + f.length) FIELD_SEPARATOR).length = (m b).length := by
      rw [splice_length (by rw [hl1, len_fs]; omega), hl1]
    rw [strncpy_eq _ _ _ _ (by rw [hl2]; omega), takeWhile_all ((cleanValue_iff v).mpr hcv), (cleanValue_iff v).mpr hcv]
    by_cases h4 : (m b).length < kept (m b) h.headersLen + f.length + 2 + v.length
    · rw [memWrite_fault (by rw [hl2]; exact h4)]; rfl
    rw [memWrite_ok (by rw [hl2]; omega)]
    simp only [Run.ok_bind, Bool.true_eq_false, if_false]
    rw [memWrite_fault (by rw [splice_length (by rw [hl2]; omega), hl2, len_he]; omega)]; rfl

end CoreHttp.Props

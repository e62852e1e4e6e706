import Verif.Lemmas.Request
import Verif.Spec.Range

/-! Range and Content-Length values. -/

namespace CoreHttp
open Spec

theorem intText_neg {v : Int} (h : v < 0) : intText v = DASH :: decimal v.natAbs := by simp [intText, h]
theorem intText_nonneg {v : Int} (h : 0 ≤ v) : intText v = decimal v.toNat := by
  simp [intText, Int.not_lt.mpr h]; congr 1; omega

theorem decimal_le10 {n : Nat} (h : n ≤ 2147483647) : (decimal n).length ≤ 10 :=
  decimal_length_le (k := 9) (by omega)

theorem prefix_splice (pre : Bytes) (n : Nat) (h : pre.length ≤ n) :
    (splice (List.replicate n (0 : UInt8)) 0 pre).take pre.length = pre := by
  rw [take_splice (by simpa using h) (by simp)]; simp

theorem memRead_prefix {buf : Bytes} {x : Bytes} {n : Nat} (hn : n = x.length) (hx : x.length ≤ buf.length)
    (h : buf.take x.length = x) : memRead buf 0 n = .ok x := by
  subst hn
  rw [memRead_ok (by omega)]; simp [h]

/-- Sequence of appends into a zeroed scratch array. -/
theorem scratch_append {α} (N : Nat) (x y : Bytes) (k : Bytes → Run α) (h : x.length + y.length ≤ N) :
    (memWrite (splice (List.replicate N (0 : UInt8)) 0 x) x.length y >>= k)
      = k (splice (List.replicate N (0 : UInt8)) 0 (x ++ y)) := by
  rw [memWrite_ok (by rw [splice_length (by simp; omega)]; simp; omega)]
  have := splice_append (blk := List.replicate N (0 : UInt8)) (off := 0) (a := x) (c := y) (by simp; omega)
  simp only [Nat.zero_add] at this
  rw [this]; rfl

theorem scratch_read (N : Nat) (x : Bytes) (h : x.length ≤ N) (n : Nat) (hn : n = x.length) :
    memRead (splice (List.replicate N (0 : UInt8)) 0 x) 0 n = .ok x :=
  memRead_prefix hn (by rw [splice_length (by simp; omega)]; simpa using h) (prefix_splice x N h)

/-- Range arguments within int32. -/
def Int32 (v : Int) : Prop := -2147483648 ≤ v ∧ v ≤ 2147483647

theorem rangeValue_eq {s e : Int} (hs : Int32 s) (he : Int32 e) (hv : ValidRange s e) :
    rangeValue s e = .ok (rangeText (requestedRange s e)) := by
  obtain ⟨h1, h2, h3, h4⟩ := hv
  obtain ⟨hs1, hs2⟩ := hs
  obtain ⟨he1, he2⟩ := he
  have hp : RANGE_VALUE_PREFIX.length = 6 := by decide
  have hN : MAX_RANGE_REQUEST_VALUE_LEN = 27 := by decide
  unfold rangeValue
  rw [hN]
  dsimp only
  rw [memWrite_ok (by simp [hp])]
  simp only [Run.ok_bind, hp]
  rw [convert_eq _ _ _ _ (by omega) (by simpa [INT32_MIN] using h4), Run.bind_assoc']
  have len1 : (intText s).length ≤ 11 := by
    by_cases hneg : s < 0
    · rw [intText_neg hneg]
      have : (decimal s.natAbs).length ≤ 10 := decimal_le10 (by omega)
      simp; omega
    · rw [intText_nonneg (by omega)]
      have : (decimal s.toNat).length ≤ 10 := decimal_le10 (by omega)
      omega
  have step1 := scratch_append (α := Bytes) 27 RANGE_VALUE_PREFIX (intText s)
  rw [hp] at step1
  rw [step1 _ (by omega)]
  simp only [Run.ok_bind]
  have l1 : (RANGE_VALUE_PREFIX ++ intText s).length = 6 + (intText s).length := by simp [hp]
  by_cases hend : e = -1
  · subst hend
    rw [if_neg (by simp [RANGE_END_OF_FILE])]
    by_cases hneg : s < 0
    · rw [if_neg (by omega), scratch_read 27 _ (by omega) _ l1.symm]
      simp only [requestedRange, if_pos hneg, rangeText, intText_neg hneg]
      rfl
    · rw [if_pos (by omega)]
      have l2 : (intText s).length ≤ 10 := by
        rw [intText_nonneg (by omega)]; exact decimal_le10 (by omega)
      have step2 := scratch_append (α := Bytes) 27 (RANGE_VALUE_PREFIX ++ intText s) [DASH]
      rw [l1] at step2
      rw [step2 _ (by simp; omega)]
      rw [scratch_read 27 _ (by simp [hp]; omega) _ (by simp [hp]; omega)]
      simp only [requestedRange, if_neg hneg, if_true, rangeText, intText_nonneg (Int.not_lt.mp hneg)]
      rfl
  · rw [if_pos (by simpa [RANGE_END_OF_FILE] using hend)]
    have hneg : ¬ s < 0 := fun h => hend (h2 h)
    have l2 : (intText s).length ≤ 10 := by
      rw [intText_nonneg (by omega)]; exact decimal_le10 (by omega)
    have step2 := scratch_append (α := Bytes) 27 (RANGE_VALUE_PREFIX ++ intText s) [DASH]
    rw [l1] at step2
    rw [step2 _ (by simp; omega)]
    rw [convert_eq _ _ _ _ (by omega) (by simp only [INT32_MIN]; omega), Run.bind_assoc']
    have l3 : (intText e).length ≤ 10 := by
      rw [intText_nonneg (by omega)]; exact decimal_le10 (by omega)
    have step3 := scratch_append (α := Bytes) 27 (RANGE_VALUE_PREFIX ++ intText s ++ [DASH]) (intText e)
    have l4 : (RANGE_VALUE_PREFIX ++ intText s ++ [DASH]).length = 6 + (intText s).length + 1 := by simp [hp]; omega
    rw [l4] at step3
    rw [step3 _ (by omega)]
    simp only [Run.ok_bind]
    rw [scratch_read 27 _ (by simp [hp]; omega) _ (by simp [hp]; omega)]
    simp only [requestedRange, if_neg hneg, if_neg hend, rangeText, intText_nonneg (Int.not_lt.mp hneg),
      intText_nonneg (show 0 ≤ e by omega)]
    rfl

theorem clean_of_digits {v : Bytes} (h : ∀ c ∈ v, 48 ≤ c.toNat ∧ c.toNat ≤ 57) : CleanValue v := by
  intro c hc
  have := h c hc
  constructor <;> rintro rfl <;> simp at this

theorem cleanValue_append {a b : Bytes} (ha : CleanValue a) (hb : CleanValue b) : CleanValue (a ++ b) := by
  intro c hc
  rcases List.mem_append.mp hc with h | h
  · exact ha c h
  · exact hb c h

theorem cleanField_append {a b : Bytes} (ha : CleanField a) (hb : CleanField b) : CleanField (a ++ b) := by
  intro c hc
  rcases List.mem_append.mp hc with h | h
  · exact ha c h
  · exact hb c h

theorem clean_decimal (n : Nat) : CleanValue (decimal n) := clean_of_digits (decimal_digits n)

theorem clean_rangeText (r : ByteRange) : CleanValue (rangeText r) := by
  cases r with
  | fromTo a b =>
    exact cleanValue_append (cleanValue_append (cleanValue_append (by decide) (clean_decimal a)) (by decide)) (clean_decimal b)
  | «from» a => exact cleanValue_append (cleanValue_append (by decide) (clean_decimal a)) (by decide)
  | last n => exact cleanValue_append (by decide) (clean_decimal n)

theorem decimal_no_dash (n : Nat) : ∀ c ∈ decimal n, c ≠ 45 := by
  intro c hc h
  have := decimal_digits n c hc
  subst h; simp at this

theorem takeWhile_dash {a : Bytes} (rest : Bytes) (h : ∀ c ∈ a, c ≠ 45) :
    (a ++ 45 :: rest).takeWhile (· ≠ 45) = a ∧ (a ++ 45 :: rest).dropWhile (· ≠ 45) = 45 :: rest := by
  induction a with
  | nil => simp
  | cons x a ih =>
    have hx : x ≠ 45 := h x (by simp)
    have := ih (fun c hc => h c (by simp [hc]))
    simp [hx]
    simpa using this

theorem decimal_ne_nil (n : Nat) : decimal n ≠ [] := List.length_pos_iff.mp (decimal_length_pos n)

theorem readRange_rangeText (r : ByteRange) : readRange (rangeText r) = some r := by
  have h6 : (ascii "bytes=").length = 6 := by decide
  cases r with
  | fromTo a b =>
    have hd := takeWhile_dash (decimal b) (decimal_no_dash a)
    have e : rangeText (.fromTo a b) = ascii "bytes=" ++ (decimal a ++ 45 :: decimal b) := by
      simp only [rangeText, List.append_assoc]; rfl
    unfold readRange
    rw [e, if_pos (List.prefix_append _ _), List.drop_left' h6]
    simp only [hd.1, hd.2, decimal_ne_nil, if_false, readDecimal_decimal]
  | «from» a =>
    have hd := takeWhile_dash [] (decimal_no_dash a)
    have e : rangeText (.from a) = ascii "bytes=" ++ (decimal a ++ [45]) := by
      simp only [rangeText, List.append_assoc]; rfl
    unfold readRange
    rw [e, if_pos (List.prefix_append _ _), List.drop_left' h6]
    simp only [hd.1, hd.2, decimal_ne_nil, if_false, if_true, readDecimal_decimal, Option.map_some]
  | last n =>
    have e : rangeText (.last n) = ascii "bytes=" ++ ([] ++ 45 :: decimal n) := by
      simp only [rangeText]; rfl
    have hd := takeWhile_dash (a := []) (decimal n) (by simp)
    unfold readRange
    rw [e, if_pos (List.prefix_append _ _), List.drop_left' h6]
    simp only [hd.1, hd.2, if_true, readDecimal_decimal, Option.map_some]

/-! Content-Length value -/

theorem toInt32_small {n : Nat} (h : n ≤ 2147483647) : toInt32 n = (n : Int) := by
  unfold toInt32
  rw [Nat.mod_eq_of_lt (by omega), if_pos (by omega)]

theorem contentLength_eq {cfg : Cfg} {m : Mem} {h : ReqHeaders} {n : Nat} (h0 : 0 < n) (hn : n ≤ 2147483647) :
    addContentLengthHeader cfg m h n = addHeader cfg m h (some CONTENT_LENGTH_FIELD) (some (decimal n)) := by
  have hl := decimal_le10 hn
  unfold addContentLengthHeader
  rw [decide_eq_true h0, toInt32_small hn]
  simp only [cAssert_true, Run.ok_bind]
  have hM : MAX_INT32_NO_OF_DECIMAL_DIGITS = 10 := rfl
  rw [hM, convert_eq _ _ _ _ (by omega) (by simp only [INT32_MIN]; omega), intText_nonneg (by omega)]
  simp only [Int.toNat_natCast]
  rw [memWrite_ok (by simpa using hl)]
  simp only [Run.ok_bind]
  rw [scratch_read 10 _ hl _ rfl]
  rfl

end CoreHttp

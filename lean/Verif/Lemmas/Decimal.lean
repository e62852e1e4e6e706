import Verif.Model.Request
import Verif.Spec.Decimal
import Verif.Lemmas.Mem

/-! Decimal conversion. -/

namespace CoreHttp
open Spec

/-- Digits, least significant first. -/
def digitsLE (a : Nat) : Bytes :=
  if a / 10 = 0 then [UInt8.ofNat (a % 10 + 48)] else UInt8.ofNat (a % 10 + 48) :: digitsLE (a / 10)
termination_by a
decreasing_by omega

theorem digitsLE_ne_nil (a : Nat) : digitsLE a ≠ [] := by
  unfold digitsLE; split <;> simp

theorem digitsLE_length (k a : Nat) (h : a < 10 ^ (k + 1)) : (digitsLE a).length ≤ k + 1 := by
  induction k generalizing a with
  | zero =>
    unfold digitsLE
    have : a / 10 = 0 := by omega
    simp [this]
  | succ k ih =>
    unfold digitsLE
    split
    · simp
    · have := ih (a / 10) (by rw [Nat.pow_succ] at h; omega)
      simp; omega

theorem digitChar_toUInt8 (d : Nat) (h : d < 10) :
    UInt8.ofNat (Nat.digitChar d).toNat = UInt8.ofNat (d + 48) := by
  rcases d with _ | _ | _ | _ | _ | _ | _ | _ | _ | _ | d
  all_goals first | rfl | omega

theorem digitsLE_reverse (a : Nat) : (digitsLE a).reverse = decimal a := by
  induction a using Nat.strongRecOn with
  | _ a ih =>
    unfold digitsLE decimal
    split
    · rename_i h
      rw [Nat.toDigits_of_lt_base (by omega)]
      simp only [List.reverse_singleton, List.map_cons, List.map_nil]
      rw [digitChar_toUInt8 a (by omega), Nat.mod_eq_of_lt (by omega)]
    · rename_i h
      rw [Nat.toDigits_of_base_le (by omega) (by omega)]
      simp only [List.reverse_cons, List.map_append, List.map_cons, List.map_nil]
      rw [ih _ (by omega), digitChar_toUInt8 _ (by omega)]
      rfl

theorem decimal_length_pos (a : Nat) : 0 < (decimal a).length := by
  rw [← digitsLE_reverse, List.length_reverse]
  exact List.length_pos_iff.mpr (digitsLE_ne_nil a)

theorem decimal_length_le {k a : Nat} (h : a < 10 ^ (k + 1)) : (decimal a).length ≤ k + 1 := by
  rw [← digitsLE_reverse, List.length_reverse]; exact digitsLE_length k a h

theorem digitsLE_length_ge (k a : Nat) (h : 10 ^ k ≤ a) : k + 1 ≤ (digitsLE a).length := by
  induction k generalizing a with
  | zero => exact List.length_pos_iff.mpr (digitsLE_ne_nil a)
  | succ k ih =>
    unfold digitsLE
    have hp : 0 < 10 ^ k := Nat.pow_pos (by decide)
    have hs : 10 ^ (k + 1) = 10 ^ k * 10 := Nat.pow_succ ..
    rw [if_neg (by omega)]
    have := ih (a / 10) (by omega)
    simp; omega

theorem decimal_length_ge {k a : Nat} (h : 10 ^ k ≤ a) : k + 1 ≤ (decimal a).length := by
  rw [← digitsLE_reverse, List.length_reverse]; exact digitsLE_length_ge k a h

theorem writeDigits_eq (buf : Bytes) (pos k a : Nat) :
    writeDigits buf pos k a = (memWrite buf (pos + k) (digitsLE a) >>= fun b => .ok (b, k + (digitsLE a).length)) := by
  induction a using Nat.strongRecOn generalizing buf k with
  | _ a ih =>
    unfold writeDigits digitsLE
    split
    · rfl
    · rename_i h
      have := memWrite_memWrite buf (pos + k) [UInt8.ofNat (a % 10 + 48)] (digitsLE (a / 10))
        (fun b => .ok (b, k + 1 + (digitsLE (a / 10)).length))
      simp only [List.length_cons, List.length_nil, List.cons_append, List.nil_append, Nat.zero_add] at this
      simp only [List.length_cons]
      rw [show k + ((digitsLE (a / 10)).length + 1) = k + 1 + (digitsLE (a / 10)).length by omega, ← this]
      congr 1; funext b
      rw [ih _ (by omega), ← Nat.add_assoc pos]

theorem reverseDigits_eq (rem pos n : Nat) (pre seg post : Bytes)
    (hpre : pre.length = pos + (n / 2 - rem)) (hseg : seg.length = n - 2 * (n / 2 - rem)) (hr : rem ≤ n / 2) :
    reverseDigits (pre ++ seg ++ post) pos n rem = .ok (pre ++ seg.reverse ++ post) := by
  induction rem generalizing pre seg post with
  | zero =>
    have : seg.length ≤ 1 := by omega
    match seg, this with
    | [], _ => simp [reverseDigits]
    | [x], _ => simp [reverseDigits]
  | succ rem ih =>
    have hlen : 2 ≤ seg.length := by omega
    obtain ⟨x, seg1, rfl⟩ : ∃ x s, seg = x :: s := by
      cases seg with
      | nil => simp at hlen
      | cons x s => exact ⟨x, s, rfl⟩
    have hne : seg1 ≠ [] := by rintro rfl; simp at hlen
    obtain ⟨mid, y, rfl⟩ : ∃ mid y, seg1 = mid ++ [y] := ⟨seg1.dropLast, seg1.getLast hne, (List.dropLast_concat_getLast hne).symm⟩
    simp only [List.length_cons, List.length_append, List.length_nil] at hseg hlen
    unfold reverseDigits
    have e1 : pos + (n / 2 - (rem + 1)) = pre.length := hpre.symm
    have e2 : pos + (n - (n / 2 - (rem + 1)) - 1) = pre.length + 1 + mid.length := by omega
    have r1 : memRead (pre ++ x :: (mid ++ [y]) ++ post) pre.length 1 = .ok [x] := by
      rw [memRead_ok (by simp)]; simp
    have r2 : memRead (pre ++ x :: (mid ++ [y]) ++ post) (pre.length + 1 + mid.length) 1 = .ok [y] := by
      rw [memRead_ok (by simp; omega)]
      have := List.drop_left' (l₁ := pre ++ [x] ++ mid) (l₂ := [y] ++ post)
        (i := pre.length + 1 + mid.length) (by simp; omega)
      simp only [List.append_assoc, List.cons_append, List.nil_append] at this ⊢
      rw [this]; rfl
    have w1 : memWrite (pre ++ x :: (mid ++ [y]) ++ post) pre.length [y] = .ok (pre ++ y :: (mid ++ [y]) ++ post) := by
      rw [memWrite_ok (by simp)]
      congr 1
      have := splice_split (pre := pre) (mid := [x]) (post := mid ++ [y] ++ post) (bs := [y]) rfl rfl
      simpa using this
    have w2 : memWrite (pre ++ y :: (mid ++ [y]) ++ post) (pre.length + 1 + mid.length) [x]
        = .ok ((pre ++ [y]) ++ mid ++ ([x] ++ post)) := by
      rw [memWrite_ok (by simp; omega)]
      congr 1
      have := splice_split (pre := pre ++ [y] ++ mid) (mid := [y]) (post := post) (bs := [x])
        (off := pre.length + 1 + mid.length) (by simp; omega) rfl
      simpa using this
    simp only [e1, e2, r1, r2, w1, w2, Run.ok_bind]
    rw [ih (pre ++ [y]) mid ([x] ++ post) (by simp; omega) (by omega) (by omega)]
    simp

/-- Text of a signed integer. -/
def intText (v : Int) : Bytes := if v < 0 then DASH :: decimal v.natAbs else decimal v.natAbs

theorem digits_then_reverse (buf : Bytes) (pos a : Nat) :
    (writeDigits buf pos 0 a >>= fun r => reverseDigits r.1 pos r.2 (r.2 / 2) >>= fun b => Run.ok (b, r.2))
      = (memWrite buf pos (decimal a) >>= fun b => Run.ok (b, (decimal a).length)) := by
  have hl : (decimal a).length = (digitsLE a).length := by rw [← digitsLE_reverse, List.length_reverse]
  rw [writeDigits_eq]
  simp only [Nat.add_zero, Nat.zero_add]
  by_cases h : pos + (digitsLE a).length ≤ buf.length
  · rw [memWrite_ok h, memWrite_ok (by omega)]
    simp only [Run.ok_bind]
    unfold splice
    rw [reverseDigits_eq _ _ _ _ _ _ (by simp; omega) (by omega) (Nat.le_refl _)]
    simp only [Run.ok_bind, hl, digitsLE_reverse]
  · have h' : ¬ pos + (decimal a).length ≤ buf.length := by omega
    simp [memWrite, h, h']

theorem convert_eq (v : Int) (buf : Bytes) (pos bl : Nat) (hbl : 10 ≤ bl) (hv : v ≠ INT32_MIN) :
    convertInt32ToAscii v buf pos bl = (memWrite buf pos (intText v) >>= fun b => .ok (b, (intText v).length)) := by
  unfold convertInt32ToAscii intText
  have : decide (MAX_INT32_NO_OF_DECIMAL_DIGITS ≤ bl) = true := decide_eq_true hbl
  simp only [this, cAssert_true, Run.ok_bind]
  split
  · have h1 := memWrite_memWrite buf pos [DASH] (decimal v.natAbs) (fun b => .ok (b, 1 + (decimal v.natAbs).length))
    simp only [List.length_cons, List.length_nil, List.cons_append, List.nil_append, Nat.zero_add] at h1
    simp only [List.length_cons]
    rw [Nat.add_comm (decimal v.natAbs).length 1, ← h1]
    congr 1; funext b
    have h2 := digits_then_reverse b (pos + 1) v.natAbs
    have h3 := congrArg (fun x => x >>= fun (r : Bytes × Nat) => Run.ok (r.1, 1 + r.2)) h2
    simp only [Run.bind_assoc', Run.ok_bind] at h3
    exact h3
  · exact digits_then_reverse buf pos v.natAbs

theorem convert_min (buf : Bytes) (pos bl : Nat) (hbl : 10 ≤ bl) (hp : pos + 1 ≤ buf.length) :
    convertInt32ToAscii INT32_MIN buf pos bl = .fault .intOverflow := by
  unfold convertInt32ToAscii
  have : decide (MAX_INT32_NO_OF_DECIMAL_DIGITS ≤ bl) = true := decide_eq_true hbl
  simp only [this, cAssert_true, Run.ok_bind]
  rw [if_pos (by decide), memWrite_ok (by simpa using hp)]
  simp

theorem digitVal_ofNat (d : Nat) (h : d < 10) : digitVal (UInt8.ofNat (d + 48)) = some d := by
  rcases d with _ | _ | _ | _ | _ | _ | _ | _ | _ | _ | d
  all_goals first | rfl | omega

theorem readDecimalAux_append (acc : Nat) (xs ys : Bytes) :
    readDecimalAux acc (xs ++ ys) = (readDecimalAux acc xs).bind (fun a => readDecimalAux a ys) := by
  induction xs generalizing acc with
  | nil => simp [readDecimalAux]
  | cons x xs ih =>
    simp only [List.cons_append, readDecimalAux]
    cases digitVal x with
    | none => simp
    | some d => simp [ih]

theorem readDecimalAux_decimal (a : Nat) : readDecimalAux 0 (decimal a) = some a := by
  rw [← digitsLE_reverse]
  induction a using Nat.strongRecOn with
  | _ a ih =>
    unfold digitsLE
    split
    · simp only [List.reverse_singleton, readDecimalAux, digitVal_ofNat _ (Nat.mod_lt a (by decide : 10 > 0))]
      congr 1; omega
    · simp only [List.reverse_cons, readDecimalAux_append]
      rw [ih _ (by omega)]
      simp only [Option.bind_some, readDecimalAux, digitVal_ofNat _ (Nat.mod_lt a (by decide : 10 > 0))]
      congr 1; omega

theorem readDecimal_decimal (a : Nat) : readDecimal (decimal a) = some a := by
  have h := readDecimalAux_decimal a
  have hp := decimal_length_pos a
  match hd : decimal a, hp with
  | c :: cs, _ => rw [hd] at h; exact h

/-- every byte of decimal text is a digit -/
theorem decimal_digits (a : Nat) : ∀ c ∈ decimal a, 48 ≤ c.toNat ∧ c.toNat ≤ 57 := by
  rw [← digitsLE_reverse]
  intro c hc
  rw [List.mem_reverse] at hc
  induction a using Nat.strongRecOn with
  | _ a ih =>
    unfold digitsLE at hc
    have hd : (UInt8.ofNat (a % 10 + 48)).toNat = a % 10 + 48 := by
      simp only [UInt8.toNat_ofNat']; omega
    split at hc
    · rw [List.mem_singleton] at hc; subst hc; rw [hd]; omega
    · rw [List.mem_cons] at hc
      rcases hc with h | h
      · subst h; rw [hd]; omega
      · exact ih (a / 10) (by omega) h

end CoreHttp

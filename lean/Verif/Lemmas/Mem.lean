import Verif.Basic

/-! Lemmas on memory blocks. -/

namespace CoreHttp

@[simp] theorem splice_length {blk : Bytes} {off : Nat} {bs : Bytes} (h : off + bs.length ≤ blk.length) :
    (splice blk off bs).length = blk.length := by
  simp only [splice, List.length_append, List.length_take, List.length_drop]; omega

theorem splice_nil (blk : Bytes) (off : Nat) : splice blk off [] = blk := by
  simp [splice]

theorem splice_append {blk : Bytes} {off : Nat} {a c : Bytes} (h : off + a.length + c.length ≤ blk.length) :
    splice (splice blk off a) (off + a.length) c = splice blk off (a ++ c) := by
  have ht : (blk.take off ++ a).length = off + a.length := by simp; omega
  unfold splice
  rw [List.take_append_of_le_length (by simp; omega), List.take_of_length_le (by simp; omega)]
  rw [List.drop_append, List.drop_eq_nil_of_le (by simp; omega)]
  simp only [List.nil_append, List.length_append, List.append_assoc, List.append_cancel_left_eq, List.drop_drop]
  congr 1
  simp [List.length_take]; omega

theorem memWrite_ok {blk : Bytes} {off : Nat} {bs : Bytes} (h : off + bs.length ≤ blk.length) :
    memWrite blk off bs = .ok (splice blk off bs) := by simp [memWrite, h]

theorem memWrite_eq_ok {blk : Bytes} {off : Nat} {bs r : Bytes} :
    memWrite blk off bs = .ok r ↔ off + bs.length ≤ blk.length ∧ r = splice blk off bs := by
  unfold memWrite; split
  · simp_all [eq_comm]
  · rename_i h; simp [h]

theorem memRead_ok {blk : Bytes} {off len : Nat} (h : off + len ≤ blk.length) :
    memRead blk off len = .ok ((blk.drop off).take len) := by simp [memRead, h]

theorem take_splice {blk : Bytes} {off : Nat} {bs : Bytes} {n : Nat} (h : off + bs.length ≤ blk.length)
    (hn : n = off + bs.length) : (splice blk off bs).take n = blk.take off ++ bs := by
  subst hn
  unfold splice
  rw [List.take_append_of_le_length (by simp; omega), List.take_of_length_le (by simp; omega)]

theorem take_splice_le {blk : Bytes} {off : Nat} {bs : Bytes} {n : Nat} (h : off ≤ blk.length)
    (hn : n ≤ off) : (splice blk off bs).take n = blk.take n := by
  unfold splice
  rw [List.append_assoc, List.take_append_of_le_length (by simp; omega), List.take_take]
  congr 1; omega

theorem drop_splice {blk : Bytes} {off : Nat} {bs : Bytes} {n : Nat} (h : off + bs.length ≤ blk.length)
    (hn : off + bs.length ≤ n) : (splice blk off bs).drop n = blk.drop n := by
  unfold splice
  rw [List.drop_append, List.drop_eq_nil_of_le (by simp; omega), List.nil_append, List.drop_drop]
  congr 1
  simp [List.length_take]; omega

/-- Two successive writes are one write. -/
theorem memWrite_memWrite {α} (blk : Bytes) (off : Nat) (a c : Bytes) (k : Bytes → Run α) :
    (memWrite blk off a >>= fun b => memWrite b (off + a.length) c >>= k) = (memWrite blk off (a ++ c) >>= k) := by
  unfold memWrite
  by_cases h1 : off + a.length ≤ blk.length
  · simp only [h1, if_true, Run.ok_bind, splice_length h1, List.length_append, ← Nat.add_assoc]
    by_cases h2 : off + a.length + c.length ≤ blk.length
    · simp only [h2, if_true, Run.ok_bind, splice_append h2]
    · simp [h2]
  · have : ¬ (off + (a ++ c).length ≤ blk.length) := by simp; omega
    simp [h1]
    rw [if_neg (by simpa using this)]; rfl

theorem mem_set_drop {m : Mem} {b : Nat} {x : Bytes} (i : Nat) (h : i ≠ b) : m.set b x i = m i := Mem.set_other m x h

/-- A block splits as what is before, in, and after an interval. -/
theorem block_split (blk : Bytes) (off len : Nat) :
    blk = blk.take off ++ ((blk.drop off).take len ++ blk.drop (off + len)) := by
  rw [← List.drop_drop, List.take_append_drop, List.take_append_drop]

theorem splice_split {pre mid post bs : Bytes} {off : Nat} (ho : off = pre.length) (hl : bs.length = mid.length) :
    splice (pre ++ mid ++ post) off bs = pre ++ bs ++ post := by
  subst ho
  simp [splice, hl, List.drop_append]

end CoreHttp

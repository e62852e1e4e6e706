import Verif.Spec.Receive
import Verif.Spec.Feed
import Verif.Lemmas.Send

/-! # Reading traces and slices: lemmas for receiving -/

namespace CoreHttp
open Spec
variable {σ : Type}

theorem slice_append (s : Bytes) (a l k : Nat) : slice s a l ++ slice s (a + l) k = slice s a (l + k) := by
  unfold slice
  rw [← List.drop_drop, List.take_add]

theorem slice_length {s : Bytes} {a l : Nat} (h : a + l ≤ s.length) : (slice s a l).length = l := by
  simp [slice]; omega

theorem slice_congr {s t : Bytes} {a l : Nat} (h : ∀ i, a ≤ i → i < a + l → s[i]? = t[i]?) : slice s a l = slice t a l := by
  unfold slice
  apply List.ext_getElem?
  intro i
  simp only [List.getElem?_take, List.getElem?_drop]
  split
  · exact h _ (by omega) (by omega)
  · rfl

theorem slice_slice {s : Bytes} {base off len : Nat} : ((s.drop base).drop off).take len = slice s (base + off) len := by
  unfold slice; rw [List.drop_drop]

theorem slice_append_left {s t : Bytes} {a l : Nat} (h : a + l ≤ s.length) : slice (s ++ t) a l = slice s a l := by
  apply slice_congr
  intro i _ hi
  rw [List.getElem?_append_left (by omega)]

theorem slice_append_right {s t : Bytes} : slice (s ++ t) s.length t.length = t := by
  simp [slice]

theorem splice_getElem? {blk bs : Bytes} {off : Nat} (h : off + bs.length ≤ blk.length) (i : Nat) :
    (splice blk off bs)[i]? = if i < off then blk[i]? else if i < off + bs.length then bs[i - off]? else blk[i]? := by
  unfold splice
  rw [List.append_assoc]
  by_cases h1 : i < off
  · rw [if_pos h1, List.getElem?_append_left (by simp; omega), List.getElem?_take, if_pos h1]
  · rw [if_neg h1, List.getElem?_append_right (by simp; omega)]
    have e : (blk.take off).length = off := by simp; omega
    rw [e]
    by_cases h2 : i < off + bs.length
    · rw [if_pos h2, List.getElem?_append_left (by omega)]
    · rw [if_neg h2, List.getElem?_append_right (by omega), List.getElem?_drop]
      congr 1; omega

theorem slice_splice {blk bs : Bytes} {off : Nat} (h : off + bs.length ≤ blk.length) : slice (splice blk off bs) off bs.length = bs := by
  apply List.ext_getElem?
  intro i
  unfold slice
  rw [List.getElem?_take, List.getElem?_drop, splice_getElem? h]
  by_cases h1 : i < bs.length
  · rw [if_pos h1, if_neg (by omega), if_pos (by omega)]; congr 1; omega
  · rw [if_neg h1, List.getElem?_eq_none (by omega)]

/-! ### Reading traces -/

@[simp] theorem obsOf_append (a c : List (Ev PLog)) : obsOf (a ++ c) = obsOf a ++ obsOf c := by
  induction a with
  | nil => rfl
  | cons x xs ih => cases x with
    | parserEvent e => cases e <;> simp [obsOf, ih]
    | _ => simp [obsOf, ih]

@[simp] theorem parsed_append (a c : List (Ev PLog)) : parsed (a ++ c) = parsed a ++ parsed c := by
  induction a with
  | nil => rfl
  | cons x xs ih => cases x <;> simp [parsed, ih]

@[simp] theorem reported_append (a c : List (Ev PLog)) : reported (a ++ c) = reported a ++ reported c := by
  induction a with
  | nil => rfl
  | cons x xs ih => cases x <;> simp [reported, ih]

@[simp] theorem received_append {π : Type} (a c : List (Ev π)) : received (a ++ c) = received a ++ received c := by
  induction a with
  | nil => rfl
  | cons x xs ih => cases x <;> simp [received, ih]

@[simp] theorem recvs_append {π : Type} (a c : List (Ev π)) : recvs (a ++ c) = recvs a ++ recvs c := by
  induction a with
  | nil => rfl
  | cons x xs ih => cases x <;> simp [recvs, ih]

theorem view_snoc (os : List PObs) (o : PObs) : view (os ++ [o]) = (view os).step o := by
  simp [view]

/-- Start of the first and end of the last body fragment. -/
def bodySpan (os : List PObs) : Option (Nat × Nat) :=
  os.foldl (fun a o => match o.ev with
    | .body _ _ => some (match a with | none => o.loc | some p => p.1, o.loc + o.data.length)
    | _ => a) none

theorem bodySpan_snoc (os : List PObs) (o : PObs) : bodySpan (os ++ [o]) = match o.ev with
    | .body _ _ => some (match bodySpan os with | none => o.loc | some p => p.1, o.loc + o.data.length)
    | _ => bodySpan os := by
  simp only [bodySpan, List.foldl_append, List.foldl_cons, List.foldl_nil]

/-- Induction on lists from the end. -/
theorem snocInduction {α : Type} {Q : List α → Prop} (hnil : Q []) (hsnoc : ∀ l a, Q l → Q (l ++ [a])) (l : List α) : Q l := by
  rw [← List.reverse_reverse l]
  induction l.reverse with
  | nil => exact hnil
  | cons x xs ih => rw [List.reverse_cons]; exact hsnoc _ _ ih

/-- An observation of a body fragment. -/
def PObs.isBody (o : PObs) : Bool := match o.ev with | .body _ _ => true | _ => false

theorem bodySpan_spec (os : List PObs) : (bodySpan os = none ∧ ∀ o ∈ os, o.isBody = false) ∨
    ∃ p e, bodySpan os = some (p, e) ∧ (∃ o ∈ os, o.isBody = true ∧ o.loc = p) ∧
      (∃ o ∈ os, o.isBody = true ∧ o.loc + o.data.length = e) := by
  refine snocInduction (Q := fun os => (bodySpan os = none ∧ ∀ o ∈ os, o.isBody = false) ∨
    ∃ p e, bodySpan os = some (p, e) ∧ (∃ o ∈ os, o.isBody = true ∧ o.loc = p) ∧
      (∃ o ∈ os, o.isBody = true ∧ o.loc + o.data.length = e)) (.inl ⟨rfl, by simp⟩) ?_ os
  intro os o ih
  rw [bodySpan_snoc]
  cases hev : o.ev with
  | body off len =>
    right
    have hb : o.isBody = true := by simp [PObs.isBody, hev]
    rcases ih with ⟨h1, _⟩ | ⟨p, e, h1, ⟨o1, ho1, hb1, hl1⟩, _⟩
    · exact ⟨o.loc, o.loc + o.data.length, by simp [h1], ⟨o, by simp, hb, rfl⟩, ⟨o, by simp, hb, rfl⟩⟩
    · exact ⟨p, o.loc + o.data.length, by simp [h1], ⟨o1, by simp [ho1], hb1, hl1⟩, ⟨o, by simp, hb, rfl⟩⟩
  | _ =>
    all_goals
      have hb : o.isBody = false := by simp [PObs.isBody, hev]
      rcases ih with ⟨h1, h2⟩ | ⟨p, e, h1, ⟨o1, ho1, hb1, hl1⟩, ⟨o2, ho2, hb2, hl2⟩⟩
      · left
        refine ⟨h1, ?_⟩
        intro x hx
        rw [List.mem_append] at hx
        rcases hx with hx | hx
        · exact h2 x hx
        · simp at hx; rw [hx]; exact hb
      · right
        exact ⟨p, e, h1, ⟨o1, by simp [ho1], hb1, hl1⟩, ⟨o2, by simp [ho2], hb2, hl2⟩⟩

/-! ### Properties of every event of a trace -/

/-- Every event satisfies `Q` with respect to what precedes it. -/
def EachEv {π : Type} (Q : List (Ev π) → Ev π → Prop) (evs : List (Ev π)) : Prop := ∀ pre e post, evs = pre ++ e :: post → Q pre e

theorem EachEv.nil {π : Type} {Q : List (Ev π) → Ev π → Prop} : EachEv Q [] := by
  intro pre e post h; simp at h

theorem EachEv.snoc {π : Type} {Q : List (Ev π) → Ev π → Prop} {evs : List (Ev π)} {e : Ev π} (h : EachEv Q evs) (he : Q evs e) :
    EachEv Q (evs ++ [e]) := by
  intro pre x post hx
  rcases List.eq_nil_or_concat post with rfl | ⟨post', y, rfl⟩
  · have := List.append_inj' hx (by simp)
    obtain ⟨rfl, h2⟩ := this
    simp at h2; obtain rfl := h2
    exact he
  · rw [List.concat_eq_append, show pre ++ x :: (post' ++ [y]) = (pre ++ x :: post') ++ [y] by simp] at hx
    have := List.append_inj' hx (by simp)
    exact h _ _ _ this.1

end CoreHttp

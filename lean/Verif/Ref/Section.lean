import Verif.Ref.MachineGen
import Verif.Ref.RoundTripPrefix

/-! # Where the reference parser finds the header section -/

namespace CoreHttp.Machine
open Spec

/-- Where the first header field begins, where the last span ends, what these were at the end of the (last) header section and where that was, and how many
messages and header sections there were. -/
structure Sec where
  first : Option Nat
  last : Nat
  fin : Option (Option Nat × Nat × Nat)
  msgs : Nat
  hcs : Nat

/-- One event. -/
def Sec.upd (s : Sec) (o : PObs) : Sec :=
  match o.ev with
  | .messageBegin => { s with msgs := s.msgs + 1 }
  | .status _ _ _ => { s with last := o.loc + o.data.length }
  | .headerField _ _ => { s with first := s.first.or (some o.loc), last := o.loc + o.data.length }
  | .headerValue _ _ => { s with last := o.loc + o.data.length }
  | .body _ _ => { s with last := o.loc + o.data.length }
  | .headersComplete _ _ _ _ => { s with fin := some (s.first, s.last, o.loc), hcs := s.hcs + 1 }
  | _ => s

/-- The summary. -/
def secAcc : Acc Sec where
  upd := Sec.upd
  span := by intro v k a b l d; cases k <;> rfl
  merge := by
    intro v k l d d'
    cases k <;> simp only [Sec.upd, SpanK.ev, List.length_append, Nat.add_assoc]
    cases v.first <;> rfl
  mb := fun _ _ _ => rfl
  sc := fun _ _ _ _ => rfl
  mc := fun _ _ _ => rfl
  hc := fun _ _ _ _ _ _ _ => rfl

end CoreHttp.Machine

namespace CoreHttp.Ref
open Spec Machine

/-- The header section is over: what is known about it. -/
def Over (s : Sec) : Prop :=
  s.hcs = 1 ∧ s.msgs = 1 ∧ ∃ l N, s.fin = some (s.first, l, N) ∧ (s.first.isSome → l + 4 = N)

/-- What is known about the header section, state by state; `n` is the position. -/
def SecInv (n : Nat) (s : Sec) : A → Prop
  | .start => s.first = none ∧ s.fin = none ∧ s.msgs = 0 ∧ s.hcs = 0
  | .proto _ | .minor | .verSp _ | .code _ _ _ | .reasonStart _ _ | .reason _ _ | .lineLF _ _ =>
    s.first = none ∧ s.fin = none ∧ s.msgs = 1 ∧ s.hcs = 0
  | .hdr i tr any =>
    if tr then Over s ∧ s.first.isSome
    else s.fin = none ∧ s.msgs = 1 ∧ s.hcs = 0 ∧ (if any then s.first.isSome ∧ s.last + 2 = n else s.first = none ∧ i.chunked = false)
  | .field _ tr _ _ | .valueWs _ tr _ => if tr then Over s ∧ s.first.isSome else s.fin = none ∧ s.msgs = 1 ∧ s.hcs = 0 ∧ s.first.isSome
  | .value _ tr _ _ => if tr then Over s ∧ s.first.isSome else s.fin = none ∧ s.msgs = 1 ∧ s.hcs = 0 ∧ s.first.isSome ∧ s.last = n
  | .valLF _ tr _ _ => if tr then Over s ∧ s.first.isSome else s.fin = none ∧ s.msgs = 1 ∧ s.hcs = 0 ∧ s.first.isSome ∧ s.last + 1 = n
  | .endLF i tr any =>
    if tr then Over s ∧ s.first.isSome
    else s.fin = none ∧ s.msgs = 1 ∧ s.hcs = 0 ∧ (if any then s.first.isSome ∧ s.last + 3 = n else s.first = none ∧ i.chunked = false)
  | .bodyStart _ _ | .bodyIn _ _ | .eofStart | .eofIn | .complete _ => Over s
  | .chunkSize _ _ _ | .chunkExt _ _ | .chunkLF _ _ | .chunkStart _ _ | .chunkIn _ _ | .chunkCR _ | .chunkCRLF _ => Over s ∧ s.first.isSome

variable {hr : CbRet}

theorem over_frag {s : Sec} (h : Over s) {k : SpanK} (hk : k = .field → s.first.isSome) (n : Nat) (d : Bytes) : Over (secAcc.frag k n d s) := by
  obtain ⟨h1, h2, l, N, h3, h4⟩ := h
  cases k with
  | field =>
    have := hk rfl
    have e : s.first.or (some n) = s.first := by cases h : s.first <;> simp_all
    refine ⟨h1, h2, l, N, ?_, ?_⟩ <;> simp only [Acc.frag, secAcc, Sec.upd, SpanK.ev, e]
    · exact h3
    · exact h4
  | _ => exact ⟨h1, h2, l, N, h3, h4⟩

theorem first_frag {s : Sec} (h : s.first.isSome) (k : SpanK) (n : Nat) (d : Bytes) : (secAcc.frag k n d s).first.isSome := by
  cases k with
  | field => show (s.first.or _).isSome; cases hs : s.first <;> simp
  | _ => exact h

/-- After the actions for a byte. -/
def SecNext (n : Nat) : Sec × St A → Prop
  | (s, .live a _) => 2 ≤ s.msgs ∨ SecInv n s a
  | (s, .dead e) => e = .paused → Over s

theorem finish_sec {n m : Nat} {c : UInt8} {s : Sec} {i : Info} (h : Over s) : SecNext n (gTree secAcc hr m c (finish i) s none) := .inr h

theorem afterHeaders_sec {n m : Nat} {c : UInt8} {s : Sec} {i : Info} (h : Over s) (hc : i.chunked = true → s.first.isSome) :
    SecNext n (gTree secAcc hr m c (afterHeaders i) s none) := by
  unfold afterHeaders
  split
  · exact .inr ⟨h, hc (by assumption)⟩
  · split
    · exact finish_sec h
    · exact .inr h
    · split
      · exact finish_sec h
      · exact .inr h

theorem headers_sec {n : Nat} {c : UInt8} {s : Sec} {i : Info} {cl : UInt64} {cc ka : Bool}
    (h0 : s.msgs = 1 ∧ s.hcs = 0) (h1 : s.first.isSome → s.last + 4 = n + 1) (h2 : i.chunked = true → s.first.isSome) :
    SecNext (n + 1) (gTree secAcc hr n c (.headers cl cc ka (afterHeaders i) (finish i)) s none) := by
  have ho : Over (secAcc.upd s ⟨.headersComplete 0 cl cc ka, n + 1, []⟩) :=
    ⟨by simp [secAcc, Sec.upd, h0.2], h0.1, s.last, n + 1, rfl, h1⟩
  cases hr with
  | continue_ => exact afterHeaders_sec ho h2
  | noBody => exact finish_sec (hr := .noBody) (m := n) (c := c) ho
  | pause => exact fun _ => ho
  | user => exact fun h => by cases h

theorem step_sec {n : Nat} {s : Sec} {a : A} (h : SecInv n s a) (c : UInt8) :
    SecNext (n + 1) (gTree secAcc hr n c (step a c) s a.opened) := by
  have hdead : ∀ e : Errno, e ≠ .paused → SecNext (n + 1) (s, .dead e) := fun e h1 h2 => absurd h2 h1
  cases a with
  | start =>
    obtain ⟨h1, h2, h3, h4⟩ := h
    simp only [step]
    split
    · exact .inr ⟨h1, h2, h3, h4⟩
    · split
      · exact .inr ⟨h1, h2, by simp [secAcc, Sec.upd, h3], h4⟩
      · exact hdead _ (by decide)
  | complete cl =>
    simp only [step]
    split
    · exact .inr h
    · split
      · exact hdead _ (by decide)
      · split
        · left; show 2 ≤ s.msgs + 1; have := h.2.1; omega
        · exact hdead _ (by decide)
  | proto rest =>
    rcases rest with _ | ⟨x, _ | ⟨y, rest⟩⟩ <;> simp only [step] <;> (repeat' split) <;> first | exact .inr h | exact hdead _ (by decide)
  | minor => simp only [step]; (repeat' split) <;> first | exact .inr h | exact hdead _ (by decide)
  | verSp m => simp only [step]; (repeat' split) <;> first | exact .inr h | exact hdead _ (by decide)
  | code m k j => simp only [step]; (repeat' split) <;> first | exact .inr h | exact hdead _ (by decide)
  | reasonStart m k => simp only [step]; (repeat' split) <;> first | exact .inr h | exact hdead _ (by decide)
  | reason m k => simp only [step]; (repeat' split) <;> first | exact .inr h | exact hdead _ (by decide)
  | lineLF m k =>
    obtain ⟨h1, h2, h3, h4⟩ := h
    simp only [step]
    split
    · exact .inr ⟨h2, h3, h4, h1, rfl⟩
    · exact hdead _ (by decide)
  | hdr i tr any =>
    cases tr with
    | true =>
      simp only [step]
      split
      · exact .inr h
      · split
        · exact .inr ⟨over_frag (over_frag h.1 (fun _ => h.2) _ _) (fun _ => first_frag h.2 _ _ _) _ _, first_frag (first_frag h.2 _ _ _) _ _ _⟩
        · exact hdead _ (by decide)
    | false =>
      obtain ⟨h1, h2, h3, h4⟩ := h
      simp only [step]
      split
      · refine .inr ⟨h1, h2, h3, ?_⟩
        cases any with
        | true => exact ⟨h4.1, by have := h4.2; omega⟩
        | false => exact h4
      · split
        · refine .inr ⟨h1, h2, h3, ?_⟩
          show ((s.first.or (some n)).or (some n)).isSome
          cases s.first <;> rfl
        · exact hdead _ (by decide)
  | field i tr any nm =>
    cases tr with
    | true =>
      simp only [step]
      split
      · exact .inr h
      · split
        · exact .inr ⟨over_frag h.1 (fun _ => h.2) _ _, first_frag h.2 _ _ _⟩
        · exact hdead _ (by decide)
    | false =>
      obtain ⟨h1, h2, h3, h4⟩ := h
      simp only [step]
      split
      · exact .inr ⟨h1, h2, h3, h4⟩
      · split
        · exact .inr ⟨h1, h2, h3, first_frag h4 .field _ _⟩
        · exact hdead _ (by decide)
  | valueWs i tr nm =>
    cases tr with
    | true =>
      simp only [step]
      split
      · exact .inr h
      · split
        · exact .inr ⟨over_frag h.1 (fun h => by cases h) _ _, h.2⟩
        · split
          · exact hdead _ (by decide)
          · exact .inr ⟨over_frag (over_frag h.1 (fun h => by cases h) _ _) (fun h => by cases h) _ _, h.2⟩
    | false =>
      obtain ⟨h1, h2, h3, h4⟩ := h
      simp only [step]
      split
      · exact .inr ⟨h1, h2, h3, h4⟩
      · split
        · exact .inr ⟨h1, h2, h3, h4, rfl⟩
        · split
          · exact hdead _ (by decide)
          · exact .inr ⟨h1, h2, h3, h4, rfl⟩
  | value i tr nm v =>
    cases tr with
    | true =>
      simp only [step]
      split
      · exact .inr h
      · split
        · exact hdead _ (by decide)
        · exact .inr ⟨over_frag h.1 (fun h => by cases h) _ _, h.2⟩
    | false =>
      obtain ⟨h1, h2, h3, h4, h5⟩ := h
      simp only [step]
      split
      · exact .inr ⟨h1, h2, h3, h4, congrArg (· + 1) h5⟩
      · split
        · exact hdead _ (by decide)
        · exact .inr ⟨h1, h2, h3, h4, rfl⟩
  | valLF i tr nm v =>
    cases tr with
    | true => simp only [step, if_true]; (repeat' split) <;> first | exact .inr h | exact hdead _ (by decide)
    | false =>
      obtain ⟨h1, h2, h3, h4, h5⟩ := h
      simp only [step, Bool.false_eq_true, if_false]
      split
      · split
        · exact .inr ⟨h1, h2, h3, h4, congrArg (· + 1) h5⟩
        · exact hdead _ (by decide)
        · exact hdead _ (by decide)
      · exact hdead _ (by decide)
  | endLF i tr any =>
    cases tr with
    | true =>
      simp only [step, if_true]
      split
      · exact finish_sec h.1
      · exact hdead _ (by decide)
    | false =>
      obtain ⟨h1, h2, h3, h4⟩ := h
      simp only [step, Bool.false_eq_true, if_false]
      split
      · refine headers_sec ⟨h2, h3⟩ ?_ ?_
        · intro hs
          cases any with
          | true => have := h4.2; omega
          | false => rw [h4.1] at hs; cases hs
        · intro hs
          cases any with
          | true => exact h4.1
          | false => rw [h4.2] at hs; cases hs
      · exact hdead _ (by decide)
  | bodyStart i k =>
    have hb : Over s := h
    cases k with
    | zero => exact finish_sec (hr := hr) (m := n) (c := c) (over_frag (over_frag hb (fun h => by cases h) n []) (k := .body) (fun h => by cases h) n [c])
    | succ k => exact .inr (over_frag (over_frag hb (fun h => by cases h) n []) (k := .body) (fun h => by cases h) n [c])
  | bodyIn i k =>
    have hb : Over s := h
    cases k with
    | zero => exact finish_sec (hr := hr) (m := n) (c := c) (over_frag hb (k := .body) (fun h => by cases h) n [c])
    | succ k => exact .inr (over_frag hb (k := .body) (fun h => by cases h) n [c])
  | eofStart =>
    have hb : Over s := h
    exact .inr (over_frag (over_frag hb (fun h => by cases h) n []) (k := .body) (fun h => by cases h) n [c])
  | eofIn =>
    have hb : Over s := h
    exact .inr (over_frag hb (k := .body) (fun h => by cases h) n [c])
  | chunkSize i k any =>
    simp only [step]
    (repeat' split) <;> first | exact .inr h | exact hdead _ (by decide)
  | chunkExt i k => simp only [step]; (repeat' split) <;> first | exact .inr h | exact hdead _ (by decide)
  | chunkLF i k => simp only [step]; (repeat' split) <;> first | exact .inr h | exact hdead _ (by decide)
  | chunkStart i k =>
    obtain ⟨hb, hf⟩ := h
    cases k <;> exact .inr ⟨over_frag (over_frag hb (fun h => by cases h) n []) (k := .body) (fun h => by cases h) n [c], hf⟩
  | chunkIn i k =>
    obtain ⟨hb, hf⟩ := h
    cases k <;> exact .inr ⟨over_frag hb (k := .body) (fun h => by cases h) n [c], hf⟩
  | chunkCR i => simp only [step]; (repeat' split) <;> first | exact .inr h | exact hdead _ (by decide)
  | chunkCRLF i => simp only [step]; (repeat' split) <;> first | exact .inr h | exact hdead _ (by decide)

/-- What is recorded is not forgotten. -/
structure SecLe (s s' : Sec) : Prop where
  msgs : s.msgs ≤ s'.msgs
  fin : s.hcs < s'.hcs ∨ (s.hcs = s'.hcs ∧ s'.fin = s.fin)
  first : ∀ p, s.first = some p → s'.first = some p

theorem SecLe.refl (s : Sec) : SecLe s s := ⟨Nat.le_refl _, .inr ⟨rfl, rfl⟩, fun _ h => h⟩

theorem SecLe.trans {s s' s'' : Sec} (h1 : SecLe s s') (h2 : SecLe s' s'') : SecLe s s'' := by
  refine ⟨Nat.le_trans h1.1 h2.1, ?_, fun p h => h2.3 p (h1.3 p h)⟩
  rcases h1.2 with h | ⟨h, h'⟩ <;> rcases h2.2 with k | ⟨k, k'⟩
  · left; omega
  · left; omega
  · left; omega
  · right; exact ⟨h.trans k, k'.trans h'⟩

theorem upd_le (s : Sec) (o : PObs) : SecLe s (secAcc.upd s o) := by
  show SecLe s (s.upd o)
  unfold Sec.upd
  split
  · exact ⟨Nat.le_succ _, .inr ⟨rfl, rfl⟩, fun _ h => h⟩
  · exact ⟨Nat.le_refl _, .inr ⟨rfl, rfl⟩, fun _ h => h⟩
  · refine ⟨Nat.le_refl _, .inr ⟨rfl, rfl⟩, fun p h => ?_⟩
    show s.first.or _ = _
    rw [h]; rfl
  · exact ⟨Nat.le_refl _, .inr ⟨rfl, rfl⟩, fun _ h => h⟩
  · exact ⟨Nat.le_refl _, .inr ⟨rfl, rfl⟩, fun _ h => h⟩
  · exact ⟨Nat.le_refl _, .inl (Nat.lt_succ_self _), fun _ h => h⟩
  · exact SecLe.refl _

theorem gTree_le (t : MTree A) : ∀ (n : Nat) (c : UInt8) (s : Sec) (o : Option SpanK), SecLe s (gTree secAcc hr n c t s o).1 := by
  induction t with
  | done a =>
    intro n c s o
    cases o with
    | none => exact SecLe.refl _
    | some k => exact upd_le _ _
  | fail e => intro n c s o; exact SecLe.refl _
  | act e t ih =>
    intro n c s o
    cases e with
    | messageBegin => exact (upd_le _ _).trans (ih _ _ _ _)
    | spanStart k => exact (upd_le s ⟨k.ev 0 0, n, []⟩).trans (ih _ _ _ _)
    | spanEnd => exact ih _ _ _ _
    | spanEndIncl =>
      cases o with
      | none => exact ih _ _ _ _
      | some k => exact (upd_le s ⟨k.ev 0 0, n, [c]⟩).trans (ih _ _ _ _)
    | statusComplete code => exact (upd_le _ _).trans (ih _ _ _ _)
    | messageComplete => exact (upd_le _ _).trans (ih _ _ _ _)
  | headers cl cc ka t1 t2 ih1 ih2 =>
    intro n c s o
    cases hr with
    | continue_ => exact (upd_le _ _).trans (ih1 _ _ _ _)
    | noBody => exact (upd_le _ _).trans (ih2 _ _ _ _)
    | pause => exact upd_le s ⟨.headersComplete 0 cl cc ka, n + 1, []⟩
    | user => exact upd_le s ⟨.headersComplete 0 cl cc ka, n + 1, []⟩

/-- The run of the reference parser with locations. -/
def srun (hr : CbRet) (n : Nat) (x : Sec × St A) (cs : Bytes) : Sec × St A := gRun secAcc http hr n x cs

theorem srun_cons (n : Nat) (s : Sec) (a : A) (o : Option SpanK) (c : UInt8) (cs : Bytes) :
    srun hr n (s, .live a o) (c :: cs) = srun hr (n + 1) (gTree secAcc hr n c (step a c) s o) cs := rfl

theorem srun_nil (n : Nat) (x : Sec × St A) : srun hr n x [] = x := rfl

theorem srun_dead (n : Nat) (s : Sec) (e : Errno) (cs : Bytes) : srun hr n (s, .dead e) cs = (s, .dead e) := gRun_dead http hr n s e cs

theorem srun_append (n : Nat) (x : Sec × St A) (cs ds : Bytes) : srun hr n x (cs ++ ds) = srun hr (n + cs.length) (srun hr n x cs) ds :=
  gRun_append http hr n x cs ds

theorem srun_le (cs : Bytes) : ∀ (n : Nat) (x : Sec × St A), SecLe x.1 (srun hr n x cs).1 := by
  induction cs with
  | nil => intro n x; exact SecLe.refl _
  | cons c cs ih =>
    intro n x
    obtain ⟨v, a | e⟩ := x
    · rw [srun_cons]; exact (gTree_le (hr := hr) (step a _) n c v _).trans (ih _ _)
    · rw [srun_dead]; exact SecLe.refl _

/-- While there is one message, the position of the header section is as expected. -/
theorem sec_run (cs : Bytes) : ∀ (n : Nat) (s : Sec) (a : A), SecInv n s a → (srun hr n (s, .live a a.opened) cs).1.msgs ≤ 1 →
    SecNext (n + cs.length) (srun hr n (s, .live a a.opened) cs) := by
  induction cs with
  | nil => intro n s a h _; exact .inr h
  | cons c cs ih =>
    intro n s a h hm
    have hs := step_sec (hr := hr) h c
    rw [srun_cons] at hm ⊢
    have ho : ∀ {v' : Sec} {a' : A} {o' : Option SpanK}, gTree secAcc hr n c (step a c) s a.opened = (v', .live a' o') → a'.opened = o' := fun e =>
      gTree_opened (G := secAcc) (hr := hr) (n := n) (c := c) (step a c) (http_machine_ok.step a c) s e
    have hmm := (srun_le (hr := hr) cs (n + 1) (gTree secAcc hr n c (step a c) s a.opened)).msgs
    rw [List.length_cons, show n + (cs.length + 1) = n + 1 + cs.length by omega]
    rcases hx : gTree secAcc hr n c (step a c) s a.opened with ⟨s', a' | e⟩ <;> rw [hx] at hs hm hmm
    · rename_i o'
      obtain rfl : a'.opened = o' := ho hx
      rcases hs with hs | hs
      · have : s'.msgs ≤ 1 := Nat.le_trans hmm hm
        omega
      · exact ih (n + 1) s' a' hs hm
    · rw [srun_dead]; exact hs

/-- The states are those of the run without locations. -/
theorem gTree_state (t : MTree A) : ∀ (n : Nat) (c : UInt8) (s : Sec) (v : View) (o : Option SpanK),
    (gTree secAcc hr n c t s o).2 = (absTree hr n c t v o).2 := by
  induction t with
  | done a => intro n c s v o; cases o <;> rfl
  | fail e => intro n c s v o; rfl
  | act e t ih =>
    intro n c s v o
    cases e with
    | spanEndIncl => cases o <;> exact ih _ _ _ _ _
    | _ => exact ih _ _ _ _ _
  | headers cl cc ka t1 t2 ih1 ih2 =>
    intro n c s v o
    cases hr with
    | continue_ => exact ih1 _ _ _ _ _
    | noBody => exact ih2 _ _ _ _ _
    | pause => rfl
    | user => rfl

theorem srun_state (cs : Bytes) : ∀ (n : Nat) (s : Sec) (v : View) (x : St A), (srun hr n (s, x) cs).2 = (run hr n (v, x) cs).2 := by
  induction cs with
  | nil => intro n s v x; rfl
  | cons c cs ih =>
    intro n s v x
    cases x with
    | live a o =>
      rw [srun_cons, run_cons]
      have h := gTree_state (hr := hr) (step a c) n c s v o
      rcases h1 : gTree secAcc hr n c (step a c) s o with ⟨s', x⟩
      rcases h2 : absTree hr n c (step a c) v o with ⟨v', x'⟩
      rw [h1, h2] at h
      obtain rfl : x = x' := h
      exact ih _ _ _ _
    | dead e =>
      rw [srun_dead]
      have : run hr n (v, .dead e) (c :: cs) = (v, .dead e) := absRun_dead http hr n v e (c :: cs)
      rw [this]

/-- Nothing seen. -/
def Sec.none_ : Sec := ⟨none, 0, none, 0, 0⟩

/-- The position of the header section of any data that begins with the header section of a well-formed response, as long as no other message begins. -/
theorem section_run {r : Response} (hcode : r.code ≤ 999) (hreason : ∀ c ∈ r.reason, c ≠ 13 ∧ c ≠ 10) (hfields : ∀ f ∈ r.fields, FieldOk f)
    {q : Bytes} (hm : (srun hr 0 (Sec.none_, .live .start none) (r.head ++ q)).1.msgs ≤ 1) :
    ∀ s x, srun hr 0 (Sec.none_, .live .start none) (r.head ++ q) = (s, x) → (∀ e, x = .dead e → e = .paused) → s.fin ≠ none →
      s.hcs = 1 ∧ s.first = (if r.fields = [] then none else some r.statusLine.length) ∧
      ∃ l N, s.fin = some (s.first, l, N) ∧ (r.fields ≠ [] → l + 4 = N) := by
  intro s x hx hd hfin
  have hend : SecNext (0 + (r.head ++ q).length) (s, x) := by
    rw [← hx]; exact sec_run (r.head ++ q) 0 Sec.none_ .start ⟨rfl, rfl, rfl, rfl⟩ hm
  rw [hx] at hm
  have hover : Over s := by
    cases x with
    | dead e => exact hend (hd e rfl)
    | live a o =>
      rcases hend with h | h
      · have : s.msgs ≤ 1 := hm
        omega
      · have hno : s.fin = none → Over s := fun h => absurd h hfin
        cases a with
        | start => exact hno h.2.1
        | hdr i tr any => cases tr with | true => exact h.1 | false => exact hno h.1
        | field i tr any nm => cases tr with | true => exact h.1 | false => exact hno h.1
        | valueWs i tr nm => cases tr with | true => exact h.1 | false => exact hno h.1
        | value i tr nm v => cases tr with | true => exact h.1 | false => exact hno h.1
        | valLF i tr nm v => cases tr with | true => exact h.1 | false => exact hno h.1
        | endLF i tr any => cases tr with | true => exact h.1 | false => exact hno h.1
        | _ => first | exact h | exact h.1 | exact hno h.2.1
  obtain ⟨o1, o2, l, N, o3, o4⟩ := hover
  -- the status line
  have hline : (srun hr 0 (Sec.none_, .live .start none) r.statusLine).2 = .live (.hdr ⟨minorOf r.version, r.code, none, false, false, false⟩ false false) none := by
    rw [srun_state _ _ _ View.empty]
    have := line_run r.version (hr := hr) hcode r.reason hreason 0
    rw [show r.statusLine = r.version.text ++ digits3 r.code ++ [32] ++ r.reason ++ crlf from rfl, this]
  rcases h1 : srun hr 0 (Sec.none_, .live .start none) r.statusLine with ⟨s1, x1⟩
  rw [h1] at hline
  obtain rfl : x1 = _ := hline
  have hsplit : r.head ++ q = r.statusLine ++ (section_ r.fields ++ q) := by simp [Response.head, Response.statusLine]
  rw [hsplit, srun_append, h1, Nat.zero_add] at hx
  have hle := srun_le (hr := hr) (section_ r.fields ++ q) r.statusLine.length (s1, .live (.hdr ⟨minorOf r.version, r.code, none, false, false, false⟩ false false) none)
  rw [hx] at hle
  have hs1 : SecNext (0 + r.statusLine.length) (s1, .live (.hdr ⟨minorOf r.version, r.code, none, false, false, false⟩ false false) none) := by
    rw [← h1]
    refine sec_run r.statusLine 0 Sec.none_ .start ⟨rfl, rfl, rfl, rfl⟩ ?_
    have : (srun hr 0 (Sec.none_, .live .start none) r.statusLine).1.msgs ≤ s.msgs := by rw [h1]; exact hle.msgs
    exact Nat.le_trans this hm
  have hs1 : s1.fin = none ∧ s1.msgs = 1 ∧ s1.hcs = 0 ∧ s1.first = none := by
    rcases hs1 with h | h
    · have : s1.msgs ≤ s.msgs := hle.msgs
      have : s.msgs ≤ 1 := hm
      omega
    · exact ⟨h.1, h.2.1, h.2.2.1, h.2.2.2.1⟩
  obtain ⟨_, _, k3, k4⟩ := hs1
  have hfirst : s.first = if r.fields = [] then none else some r.statusLine.length := by
    rcases hf : r.fields with _ | ⟨f, fs⟩
    · rw [if_pos rfl]
      rw [hf] at hx
      have hsec : section_ ([] : List Field) ++ q = 13 :: 10 :: q := by simp [section_, crlf]
      rw [hsec, srun_cons] at hx
      simp only [step, if_true, gTree] at hx
      rw [srun_cons] at hx
      simp only [step, if_true, Bool.false_eq_true, if_false] at hx
      generalize hy : gTree secAcc hr (r.statusLine.length + 1) 10 _ s1 none = y at hx
      have hyf : y.1.fin = some (none, s1.last, r.statusLine.length + 1 + 1) ∧ y.1.hcs = 1 := by
        rw [← hy]
        cases hr with
        | continue_ => simp only [gTree, afterHeaders, finish]; (repeat' split) <;> simp [gTree, secAcc, Sec.upd, k3, k4]
        | noBody => simp [gTree, finish, secAcc, Sec.upd, k3, k4]
        | pause => simp [gTree, secAcc, Sec.upd, k3, k4]
        | user => simp [gTree, secAcc, Sec.upd, k3, k4]
      have hle2 := srun_le (hr := hr) q (r.statusLine.length + 1 + 1) y
      rw [hx] at hle2
      rcases hle2.fin with h | ⟨_, h⟩
      · rw [hyf.2, o1] at h; omega
      · have h : s.fin = y.1.fin := h
        rw [o3, hyf.1] at h
        exact congrArg Prod.fst (Option.some.inj h)
    · rw [if_neg (by simp)]
      have hfo := hfields f (by rw [hf]; exact List.mem_cons_self)
      rcases hn : f.name with _ | ⟨c, cs⟩
      · exact absurd hn hfo.name.1
      have hc : isToken c = true := hfo.name.2 c (by rw [hn]; exact List.mem_cons_self)
      have hsec : ∃ t, section_ r.fields ++ q = c :: t := by
        rw [hf]; simp [section_, Field.line, hn]
      obtain ⟨t, ht⟩ := hsec
      rw [ht, srun_cons] at hx
      simp only [step, if_neg (token_ne hc).1, hc, if_true, gTree] at hx
      have hle2 := srun_le (hr := hr) t (r.statusLine.length + 1) (secAcc.frag .field r.statusLine.length [c] (secAcc.frag .field r.statusLine.length [] s1),
        .live (.field ⟨minorOf r.version, r.code, none, false, false, false⟩ false false [lower c]) (some .field))
      rw [hx] at hle2
      exact hle2.first _ (by simp [Acc.frag, secAcc, Sec.upd, SpanK.ev, k4])
  refine ⟨o1, hfirst, l, N, o3, fun h => o4 ?_⟩
  rw [hfirst, if_neg h]; rfl

end CoreHttp.Ref

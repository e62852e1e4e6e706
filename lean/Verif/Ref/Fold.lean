import Verif.Ref.MachineView
import Verif.Ref.Http

/-!
# A reference parser that accepts folded header lines

RFC 9112, 5.2: a header value may be continued on the next line when that line begins with a blank (obs-fold); a user agent replaces such a fold by
blanks. llhttp accepts folded lines and reports each line of the value separately, without the line ends. So does this parser: the parser of
`Ref/Http.lean`, except that a header line is taken into account only when the first byte of the next line is known not to be a blank.
-/

namespace CoreHttp

/-- The same actions, with other states at the end. -/
def MTree.map {A B : Type} (f : A → B) : MTree A → MTree B
  | .done a => .done (f a)
  | .fail e => .fail e
  | .act e t => .act e (t.map f)
  | .headers cl cc ka t1 t2 => .headers cl cc ka (t1.map f) (t2.map f)

end CoreHttp

namespace CoreHttp.Ref
open Spec

/-- Parser states. -/
inductive F where
  /-- as without folding -/
  | plain (a : A)
  /-- a header line has ended; the next line may continue it -/
  | held (i : Info) (tr : Bool) (name val : Bytes)
  /-- in a further line of a value -/
  | more (i : Info) (tr : Bool) (name val : Bytes)
deriving DecidableEq, Repr

/-- The phase (before the open span). -/
def F.phase : F → Phase
  | .plain a => a.phase
  | .held _ tr _ _ | .more _ tr _ _ => if tr then .tvalue else .value

/-- The open span. -/
def F.opened : F → Option SpanK
  | .plain a => a.opened
  | .held _ _ _ _ => none
  | .more _ _ _ _ => some .value

/-- The header line is complete: take it into account and go on with the first byte of the next line. -/
def settle (i : Info) (tr : Bool) (name val : Bytes) (c : UInt8) : MTree F :=
  if tr then (step (.hdr i tr true) c).map .plain
  else match i.note name val with
    | .ok i' => (step (.hdr i' tr true) c).map .plain
    | .error .invalidContentLength => .fail .invalidContentLength
    | .error _ => .fail .unexpectedContentLength

/-- Read one byte. SP = 32, HT = 9. -/
def stepF : F → UInt8 → MTree F
  | .plain (.valLF i tr name val), c => if c = 10 then .done (.held i tr name val) else .fail .lfExpected
  | .plain a, c => (step a c).map .plain
  | .held i tr name val, c =>
    if c = 32 ∨ c = 9 then .act (.spanStart .value) (.done (.more i tr name (val ++ [c])))
    else settle i tr name val c
  | .more i tr name val, c =>
    if c = 13 then .act .spanEnd (.done (.plain (.valLF i tr name val)))
    else if c = 10 ∨ c = 0 then .fail .invalidHeaderToken
    else .done (.more i tr name (val ++ [c]))

/-- The machine. -/
def httpFold : Machine := ⟨F, .plain .start, stepF⟩

/-- The reference parser that accepts folded lines. -/
def foldParser : Parser := httpFold.toParser

theorem startOk_weaken {k : SpanK} {ph : Phase} (h : Machine.startOk true k ph) : Machine.startOk false k ph := by
  cases k with
  | value => rcases h with h | h | ⟨h, _⟩
             · exact .inl h
             · exact .inr (.inl h)
             · cases h
  | _ => exact h

theorem actOk_map {t : MTree A} : ∀ {ph : Phase} {o : Option SpanK} {st lt : Bool}, Machine.ActOk true A.phase A.opened t ph o st lt →
    Machine.ActOk false F.phase F.opened (t.map .plain) ph o st lt := by
  induction t with
  | done a => intro ph o st lt h; exact h
  | fail e => intro ph o st lt h; exact h
  | act e t ih =>
    intro ph o st lt h
    cases e with
    | messageBegin => exact ⟨h.1, h.2.1, ih h.2.2⟩
    | spanStart k => exact ⟨h.1, startOk_weaken h.2.1, h.2.2.1, ih h.2.2.2⟩
    | spanEnd => obtain ⟨h1, k, h2, h3, h4⟩ := h; exact ⟨h1, k, h2, h3, ih h4⟩
    | spanEndIncl => obtain ⟨k, h2, h4⟩ := h; exact ⟨k, h2, ih h4⟩
    | statusComplete n => exact ⟨h.1, h.2.1, ih h.2.2⟩
    | messageComplete => exact ⟨h.1, h.2.1, ih h.2.2⟩
  | headers cl cc ka t1 t2 ih1 ih2 =>
    intro ph o st lt h
    obtain ⟨h1, h2, h3, h4, h5⟩ := h
    exact ⟨h1, h2, h3, ih1 h4, ih2 h5⟩

theorem stepF_plain {a : A} {c : UInt8} (h : ∀ i tr name val, a ≠ .valLF i tr name val) : stepF (.plain a) c = (step a c).map .plain := by
  cases a <;> first | rfl | exact absurd rfl (h _ _ _ _)

/-- The parser honours the parser contract, as far as folded lines allow. -/
theorem httpFold_ok : Machine.Ok false httpFold F.phase F.opened := by
  have hok := http_machine_ok
  refine ⟨⟨rfl, rfl⟩, ?_, ?_, ?_⟩
  · intro a
    cases a with
    | plain a => exact hok.live a
    | held i tr name val => cases tr <;> simp [F.phase]
    | more i tr name val => cases tr <;> simp [F.phase]
  · intro a k h
    cases a with
    | plain a => exact startOk_weaken (hok.start a k h)
    | held i tr name val => cases h
    | more i tr name val =>
      obtain rfl : SpanK.value = k := by simpa [F.opened] using h
      cases tr <;> simp [F.phase, Machine.startOk]
  · intro a c
    show Machine.ActOk false F.phase F.opened (stepF a c) a.phase a.opened false false
    cases a with
    | plain a =>
      by_cases hv : ∃ i tr name val, a = .valLF i tr name val
      · obtain ⟨i, tr, name, val, rfl⟩ := hv
        simp only [stepF]
        split
        · exact ⟨rfl, rfl⟩
        · refine ⟨⟨(hok.live (A.valLF i tr name val)).1, (hok.live (A.valLF i tr name val)).2, (by intro h; cases h)⟩, by decide⟩
      · rw [stepF_plain fun i tr name val h => hv ⟨i, tr, name, val, h⟩]
        exact actOk_map (hok.step a c)
    | held i tr name val =>
      simp only [stepF]
      split
      · refine ⟨rfl, ?_, rfl, rfl, rfl⟩
        cases tr <;> simp [F.phase, Machine.startOk]
      · unfold settle
        split
        · rename_i h; subst h
          exact actOk_map (hok.step (.hdr i true true) c)
        · rename_i h
          obtain rfl : tr = false := by simpa using h
          split
          · rename_i i' _
            exact actOk_map (hok.step (.hdr i' false true) c)
          · exact ⟨by simp [F.phase], by decide⟩
          · exact ⟨by simp [F.phase], by decide⟩
    | more i tr name val =>
      simp only [stepF]
      split
      · refine ⟨rfl, .value, rfl, (by intro h; cases h), ?_, rfl⟩
        cases tr <;> rfl
      · split
        · exact ⟨by cases tr <;> simp [F.phase], by decide⟩
        · exact ⟨rfl, rfl⟩

/-- The parser honours the parser contract without strictness. -/
theorem foldParser_ok : ParserOk false foldParser := Machine.toParser_ok httpFold_ok

end CoreHttp.Ref

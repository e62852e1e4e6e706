import Verif.Lemmas.ReadHeaderTop
import Verif.Spec.Folded

/-! # Looking up a header with a parser that accepts folded lines -/

namespace CoreHttp
open Spec

/-- The same headers, except that values may be cut off. -/
def CutH (h h' : Bytes × Bytes × Nat) : Prop := h.1 = h'.1 ∧ h.2.1 <+: h'.2.1 ∧ h.2.2 = h'.2.2

/-- The same pending header, except that the value may be cut off. -/
def CutP : Option (Bytes × Option Bytes) → Option (Bytes × Option Bytes) → Prop
  | none, none => True
  | some (f, none), some (f', none) => f = f'
  | some (f, some x), some (f', some y) => f = f' ∧ x <+: y
  | _, _ => False

/-- Lists of headers. -/
inductive CutL : List (Bytes × Bytes × Nat) → List (Bytes × Bytes × Nat) → Prop
  | nil : CutL [] []
  | snoc {hs hs' h h'} : CutL hs hs' → CutH h h' → CutL (hs ++ [h]) (hs' ++ [h'])

/-- Views. -/
structure Cut (v v' : View) : Prop where
  code : v.statusCode = v'.statusCode
  headers : CutL v.headers v'.headers
  pending : CutP v.pending v'.pending

theorem Cut.flush {v v' : View} (h : Cut v v') : Cut v.flush v'.flush := by
  obtain ⟨h1, h2, h3⟩ := h
  unfold View.flush
  rcases hp : v.pending with _ | ⟨f, _ | x⟩ <;> rcases hp' : v'.pending with _ | ⟨f', _ | x'⟩ <;> rw [hp, hp'] at h3 <;> try exact h3.elim
  · exact ⟨h1, h2, by rw [hp, hp']; trivial⟩
  · exact ⟨h1, h2, by rw [hp, hp']; exact h3⟩
  · exact ⟨h1, h2.snoc ⟨h3.1, h3.2, h1⟩, trivial⟩

theorem flush_pending (v : View) (f x : Bytes) : v.flush.pending ≠ some (f, some x) := by
  unfold View.flush
  rcases hp : v.pending with _ | ⟨g, _ | y⟩ <;> simp [hp]

/-- An event that both see. -/
theorem Cut.step {v v' : View} {o : PObs} (h : Cut v v') (hv : (∃ off len, o.ev = .headerValue off len) → ∀ f x, v.pending ≠ some (f, some x)) :
    Cut (v.step o) (v'.step o) := by
  obtain ⟨h1, h2, h3⟩ := h
  cases he : o.ev with
  | messageBegin => simp only [View.step, he]; exact ⟨h1, h2, h3⟩
  | messageComplete => simp only [View.step, he]; exact ⟨h1, h2, h3⟩
  | body off len => simp only [View.step, he]; exact ⟨h1, h2, h3⟩
  | status off len code => simp only [View.step, he]; exact ⟨rfl, h2, trivial⟩
  | statusComplete code => simp only [View.step, he]; exact ⟨rfl, h2, trivial⟩
  | headersComplete a c d f =>
    obtain ⟨g1, g2, g3⟩ := Cut.flush ⟨h1, h2, h3⟩
    simp only [View.step, he]; exact ⟨g1, g2, g3⟩
  | headerField off len =>
    obtain ⟨g1, g2, g3⟩ := Cut.flush ⟨h1, h2, h3⟩
    simp only [View.step, he]
    refine ⟨g1, g2, ?_⟩
    dsimp only
    rcases hp : v.flush.pending with _ | ⟨f, _ | x⟩ <;> rcases hp' : v'.flush.pending with _ | ⟨f', _ | x'⟩ <;> rw [hp, hp'] at g3 <;> try exact g3.elim
    · rfl
    · obtain rfl : f = f' := g3
      rfl
    · exact absurd hp (flush_pending _ _ _)
  | headerValue off len =>
    have hn := hv ⟨off, len, he⟩
    simp only [View.step, he]
    refine ⟨h1, h2, ?_⟩
    dsimp only
    rcases hp : v.pending with _ | ⟨f, _ | x⟩ <;> rcases hp' : v'.pending with _ | ⟨f', _ | x'⟩ <;> rw [hp, hp'] at h3 <;> try exact h3.elim
    · trivial
    · exact ⟨h3, List.prefix_refl _⟩
    · exact absurd hp (hn _ _)

/-- An event that is left out. -/
theorem Cut.skip {v v' : View} {o : PObs} {off len : Nat} (h : Cut v v') (he : o.ev = .headerValue off len) (hv : ∀ f, v.pending ≠ some (f, none)) :
    Cut v (v'.step o) := by
  obtain ⟨h1, h2, h3⟩ := h
  simp only [View.step, he]
  refine ⟨h1, h2, ?_⟩
  dsimp only
  rcases hp : v.pending with _ | ⟨f, _ | x⟩ <;> rcases hp' : v'.pending with _ | ⟨f', _ | x'⟩ <;> rw [hp, hp'] at h3 <;> try exact h3.elim
  · trivial
  · exact absurd hp (hv _)
  · exact ⟨h3.1, h3.2.trans (List.prefix_append _ _)⟩

/-- In a value. -/
def inValue (ph : Phase) : Prop := ph = .value ∨ ph = .tvalue
/-- In a name. -/
def inField (ph : Phase) : Prop := ph = .field ∨ ph = .tfield

/-- A contract-honouring list of events without the further pieces of values honours the strict contract; the headers are the same except that values are
cut off. -/
theorem firstPieces_chain {strict : Bool} {dlen : Nat} (os : List PObs) : ∀ (last : Bool) (ph : Phase) (lo lo' : Nat) (v v' : View),
    Chain strict 0 dlen ph lo (os.map PObs.ev) → (last = true ↔ inValue ph) → lo' ≤ lo → (inField ph → lo' = lo) → Cut v v' →
    (inField ph → ∀ f x, v.pending ≠ some (f, some x)) → (last = true → ∀ f, v.pending ≠ some (f, none)) →
    Chain true 0 dlen ph lo' ((firstPieces last os).map PObs.ev) ∧ Cut ((firstPieces last os).foldl View.step v) (os.foldl View.step v') := by
  induction os with
  | nil => intro last ph lo lo' v v' _ _ _ _ h _ _; exact ⟨trivial, h⟩
  | cons o os ih =>
    intro last ph lo lo' v v' hc hl hlo hlf hcut hF hL
    obtain ⟨hok, hc⟩ := hc
    cases he : o.ev with
    | headerValue off len =>
      rw [he] at hok hc
      obtain ⟨⟨s1, s2, s3⟩, hph, hst⟩ := hok
      have hnext : inValue (ph.next (.headerValue off len) .continue_) := by
        unfold inValue Phase.next; by_cases h9 : ph = .tfield ∨ ph = .tvalue
        · right; simp only [h9, if_true]
        · left; simp only [h9, if_false]
      have hnf : ¬ inField (ph.next (.headerValue off len) .continue_) := by
        rcases hnext with h9 | h9 <;> rw [h9] <;> simp [inField]
      cases last with
      | true =>
        have hiv := hl.mp rfl
        have hsame : ph.next (.headerValue off len) .continue_ = ph := by rcases hiv with rfl | rfl <;> rfl
        have e1 : firstPieces true (o :: os) = firstPieces true os := by simp [firstPieces, he]
        rw [e1]
        have := ih true ph (endPos 0 lo (.headerValue off len)) lo' v (v'.step o) (by rw [← hsame]; exact hc) hl
          (by simp only [endPos]; omega) (fun h => by rw [hsame] at hnf; exact absurd h hnf) (hcut.skip he (hL rfl)) hF hL
        exact this
      | false =>
        have hnv : ¬ inValue ph := fun h => by have := hl.mpr h; cases this
        have hif : inField ph := by
          rcases hph with h | h | h | h
          · exact .inl h
          · exact absurd (.inl h) hnv
          · exact .inr h
          · exact absurd (.inr h) hnv
        have e1 : firstPieces false (o :: os) = o :: firstPieces true os := by simp [firstPieces, he]
        rw [e1]
        have := ih true _ (endPos 0 lo (.headerValue off len)) (endPos 0 lo' (.headerValue off len)) (v.step o) (v'.step o) hc ⟨fun _ => hnext, fun _ => rfl⟩
          (Nat.le_refl _) (fun _ => rfl) (hcut.step fun _ => hF hif) (fun h => absurd h hnf) (fun _ f => by
            simp only [View.step, he]
            rcases hp : v.pending with _ | ⟨g, _ | y⟩ <;> simp)
        refine ⟨⟨?_, ?_⟩, this.2⟩
        · rw [he]; exact ⟨⟨by omega, s2, s3⟩, hph, fun _ h => absurd h hnv⟩
        · rw [he]; exact this.1
    | headerField off len =>
      rw [he] at hok hc
      obtain ⟨⟨s1, s2, s3⟩, hph⟩ := hok
      have hnext : inField (ph.next (.headerField off len) .continue_) := by
        unfold inField Phase.next
        by_cases h9 : ph = .body ∨ ph = .tfield ∨ ph = .tvalue
        · right; simp only [h9, if_true]
        · left; simp only [h9, if_false]
      have hnv : ¬ inValue (ph.next (.headerField off len) .continue_) := by
        rcases hnext with h9 | h9 <;> rw [h9] <;> simp [inValue]
      have e1 : firstPieces last (o :: os) = o :: firstPieces false os := by simp [firstPieces, he]
      rw [e1]
      have := ih false _ (endPos 0 lo (.headerField off len)) (endPos 0 lo' (.headerField off len)) (v.step o) (v'.step o) hc
        ⟨(fun h => by cases h), fun h => absurd h hnv⟩ (Nat.le_refl _) (fun _ => rfl) (hcut.step fun ⟨a, b, h⟩ => by rw [he] at h; cases h)
        (fun _ f x => by
          simp only [View.step, he]
          rcases hp : v.flush.pending with _ | ⟨g, _ | y⟩
          · simp
          · simp
          · exact absurd hp (flush_pending _ _ _)) (fun h => by cases h)
      refine ⟨⟨?_, ?_⟩, this.2⟩
      · rw [he]
        refine ⟨⟨by omega, s2, s3⟩, ?_⟩
        rcases hph with h | ⟨h, h5, h6⟩
        · exact .inl h
        · refine .inr ⟨h, h5, ?_⟩
          rw [hlf h]; exact h6
      · rw [he]; exact this.1
    | messageBegin =>
      rw [he] at hok hc
      have e1 : firstPieces last (o :: os) = o :: firstPieces false os := by simp [firstPieces, he]
      rw [e1]
      have := ih false _ (endPos 0 lo .messageBegin) (endPos 0 lo' .messageBegin) (v.step o) (v'.step o) hc
        (by simp [inValue, Phase.next]) hlo (by simp [inField, Phase.next]) (hcut.step fun ⟨a, b, h⟩ => by rw [he] at h; cases h)
        (by simp [inField, Phase.next]) (fun h => by cases h)
      exact ⟨⟨by rw [he]; exact hok, by rw [he]; exact this.1⟩, this.2⟩
    | messageComplete =>
      rw [he] at hok hc
      have e1 : firstPieces last (o :: os) = o :: firstPieces false os := by simp [firstPieces, he]
      rw [e1]
      have := ih false _ (endPos 0 lo .messageComplete) (endPos 0 lo' .messageComplete) (v.step o) (v'.step o) hc
        (by simp [inValue, Phase.next]) hlo (by simp [inField, Phase.next]) (hcut.step fun ⟨a, b, h⟩ => by rw [he] at h; cases h)
        (by simp [inField, Phase.next]) (fun h => by cases h)
      exact ⟨⟨by rw [he]; exact hok, by rw [he]; exact this.1⟩, this.2⟩
    | statusComplete code =>
      rw [he] at hok hc
      have e1 : firstPieces last (o :: os) = o :: firstPieces false os := by simp [firstPieces, he]
      rw [e1]
      have := ih false _ (endPos 0 lo (.statusComplete code)) (endPos 0 lo' (.statusComplete code)) (v.step o) (v'.step o) hc
        (by simp [inValue, Phase.next]) hlo (by simp [inField, Phase.next]) (hcut.step fun ⟨a, b, h⟩ => by rw [he] at h; cases h)
        (by simp [inField, Phase.next]) (fun h => by cases h)
      exact ⟨⟨by rw [he]; exact hok, by rw [he]; exact this.1⟩, this.2⟩
    | status off len code =>
      rw [he] at hok hc
      obtain ⟨h1, s1, s2, s3⟩ := hok
      have e1 : firstPieces last (o :: os) = o :: firstPieces false os := by simp [firstPieces, he]
      rw [e1]
      have := ih false _ (endPos 0 lo (.status off len code)) (endPos 0 lo' (.status off len code)) (v.step o) (v'.step o) hc
        (by simp [inValue, Phase.next]) (Nat.le_refl _) (by simp [inField, Phase.next]) (hcut.step fun ⟨a, b, h⟩ => by rw [he] at h; cases h)
        (by simp [inField, Phase.next]) (fun h => by cases h)
      exact ⟨⟨by rw [he]; exact ⟨h1, by omega, s2, s3⟩, by rw [he]; exact this.1⟩, this.2⟩
    | body off len =>
      rw [he] at hok hc
      obtain ⟨h1, s1, s2, s3⟩ := hok
      have e1 : firstPieces last (o :: os) = o :: firstPieces false os := by simp [firstPieces, he]
      rw [e1]
      have := ih false _ (endPos 0 lo (.body off len)) (endPos 0 lo' (.body off len)) (v.step o) (v'.step o) hc
        (by simp [inValue, Phase.next]) (Nat.le_refl _) (by simp [inField, Phase.next]) (hcut.step fun ⟨a, b, h⟩ => by rw [he] at h; cases h)
        (by simp [inField, Phase.next]) (fun h => by cases h)
      exact ⟨⟨by rw [he]; exact ⟨h1, by omega, s2, s3⟩, by rw [he]; exact this.1⟩, this.2⟩
    | headersComplete at_ cl cc ka =>
      rw [he] at hok hc
      obtain ⟨h1, s1, s2, s3⟩ := hok
      have e1 : firstPieces last (o :: os) = o :: firstPieces false os := by simp [firstPieces, he]
      rw [e1]
      have := ih false _ (endPos 0 lo (.headersComplete at_ cl cc ka)) (endPos 0 lo' (.headersComplete at_ cl cc ka)) (v.step o) (v'.step o) hc
        (by simp [inValue, Phase.next, answers]) (Nat.le_refl _) (by simp [inField, Phase.next, answers])
        (hcut.step fun ⟨a, b, h⟩ => by rw [he] at h; cases h)
        (by simp [inField, Phase.next, answers]) (fun h => by cases h)
      exact ⟨⟨by rw [he]; exact ⟨h1, by omega, s2, s3⟩, by rw [he]; exact this.1⟩, this.2⟩

open Classical in
/-- The search does not look at further pieces of values. -/
theorem scan_firstPieces {name : Bytes} (os : List PObs) : ∀ (ff last : Bool), (last = true → ff = false) →
    scan name ff (firstPieces last os) = scan name ff os := by
  induction os with
  | nil => intro ff last _; rfl
  | cons o os ih =>
    intro ff last hl
    cases he : o.ev with
    | headerValue off len =>
      cases last with
      | true =>
        obtain rfl := hl rfl
        simp only [firstPieces, he, if_true, scan, Bool.false_eq_true, if_false]
        exact ih _ _ fun _ => rfl
      | false =>
        cases ff with
        | true => simp [firstPieces, he, scan]
        | false =>
          simp only [firstPieces, he, scan, Bool.false_eq_true, if_false]
          exact ih _ _ fun _ => rfl
    | headerField off len => simp only [firstPieces, he, scan]; exact ih _ _ (by simp)
    | messageBegin => simp only [firstPieces, he, scan]; exact ih _ _ (by simp)
    | messageComplete => simp only [firstPieces, he, scan]; exact ih _ _ (by simp)
    | status off len code => simp only [firstPieces, he, scan]; exact ih _ _ (by simp)
    | statusComplete code => simp only [firstPieces, he, scan]; exact ih _ _ (by simp)
    | body off len => simp only [firstPieces, he, scan]; exact ih _ _ (by simp)
    | headersComplete a c d f => simp only [firstPieces, he, scan]; exact ih _ _ (by simp)

theorem readAll_chain' {strict : Bool} {P : Parser} (hP : ParserOk strict P) (data : Bytes) :
    Chain strict 0 data.length .idle 0 ((readAll P data).1.map PObs.ev) := by
  obtain ⟨Inv, hi, hT⟩ := hP
  rw [readAll_eq, observe_evs]
  exact chain_of_tree _ _ _ (hT _ _ 0 0 _ hi (Nat.le_refl _))

theorem readAll_cut {strict : Bool} {P : Parser} (hP : ParserOk strict P) (data : Bytes) :
    Chain true 0 data.length .idle 0 ((firstPieces false (readAll P data).1).map PObs.ev) ∧
      Cut (view (firstPieces false (readAll P data).1)) (view (readAll P data).1) :=
  firstPieces_chain _ false .idle 0 0 View.empty View.empty (readAll_chain' hP data) (by simp [inValue]) (Nat.le_refl _) (fun _ => rfl)
    ⟨rfl, .nil, trivial⟩ (by simp [View.empty]) (by simp)

theorem CutL.length {hs hs' : List (Bytes × Bytes × Nat)} (h : CutL hs hs') : hs.length = hs'.length := by
  induction h with
  | nil => rfl
  | snoc _ _ ih => simp [ih]

/-- One by one. -/
theorem CutL.get {hs hs' : List (Bytes × Bytes × Nat)} (h : CutL hs hs') : ∀ (i : Nat) x y, hs[i]? = some x → hs'[i]? = some y → CutH x y := by
  induction h with
  | nil => intro i x y hx; simp at hx
  | @snoc l l' a a' h1 h2 ih =>
    intro i x y hx hy
    have hl := h1.length
    by_cases hi : i < l.length
    · rw [List.getElem?_append_left hi] at hx
      rw [List.getElem?_append_left (by omega)] at hy
      exact ih i x y hx hy
    · rw [List.getElem?_append_right (by omega)] at hx
      rw [List.getElem?_append_right (by omega)] at hy
      rw [hl] at hx
      cases hd : i - l'.length with
      | zero =>
        rw [hd] at hx hy
        simp at hx hy
        rw [← hx, ← hy]; exact h2
      | succ k => rw [hd] at hx; simp at hx

end CoreHttp

import Verif.Ref.MachineGen
import Verif.Ref.Partial
import Verif.Spec.Place

/-! # Where the reference parser finds the body -/

namespace CoreHttp.Machine
open Spec

/-- Where the first body fragment begins. -/
def firstBody (f : Option Nat) (o : PObs) : Option Nat :=
  match o.ev with
  | .body _ _ => f.or (some o.loc)
  | _ => f

/-- The summary. -/
def bodyAcc : Acc (Option Nat) where
  upd := firstBody
  span := by intro v k a b l d; cases k <;> rfl
  merge := by
    intro v k l d d'
    cases k <;> simp only [firstBody, SpanK.ev]
    cases v <;> rfl
  mb := fun _ _ _ => rfl
  sc := fun _ _ _ _ => rfl
  mc := fun _ _ _ => rfl
  hc := fun _ _ _ _ _ _ _ => rfl

end CoreHttp.Machine

namespace CoreHttp.Ref
open Spec Machine

/-- A body span that begins with a byte contains that byte. -/
def Fresh : MTree A → Prop
  | .done _ => True
  | .fail _ => True
  | .act (.spanStart .body) (.done _) => True
  | .act (.spanStart .body) (.act .spanEndIncl t) => Fresh t
  | .act (.spanStart .body) _ => False
  | .act _ t => Fresh t
  | .headers _ _ _ t1 t2 => Fresh t1 ∧ Fresh t2

variable {hr : CbRet}

theorem finish_fresh (i : Info) : Fresh (finish i) := by
  unfold finish; trivial

theorem afterHeaders_fresh (i : Info) : Fresh (afterHeaders i) := by
  unfold afterHeaders
  split
  · trivial
  · split
    · exact finish_fresh i
    · trivial
    · split
      · exact finish_fresh i
      · trivial

theorem step_fresh (a : A) (c : UInt8) : Fresh (step a c) := by
  cases a with
  | proto rest =>
    rcases rest with _ | ⟨x, _ | ⟨y, rest⟩⟩ <;> simp only [step] <;> (repeat' split) <;> trivial
  | _ =>
    simp only [step] <;> (repeat' split) <;>
      first
      | trivial
      | exact finish_fresh _
      | exact afterHeaders_fresh _
      | exact ⟨afterHeaders_fresh _, finish_fresh _⟩
      | (simp only [Fresh]; done)
      | (simp only [Fresh]; exact finish_fresh _)

theorem flush_body (v : View) : v.flush.body = v.body := by
  unfold View.flush; (repeat' split) <;> rfl

/-- What a step preserves: a location is known exactly when there are body bytes, and the first one is at position `n`. -/
def Placed (n : Nat) (f : Option Nat) (y : Option Nat × St A) (z : View × St A) : Prop :=
  (y.1 = none ↔ z.1.body = []) ∧ y.2 = z.2 ∧ (y.1 = f ∨ (f = none ∧ y.1 = some n))

theorem frag_placed {k : SpanK} {n : Nat} {c : UInt8} {f : Option Nat} {v : View} (h : f = none ↔ v.body = []) :
    (bodyAcc.frag k n [c] f = none ↔ (v.step (frag k [c])).body = []) ∧
    (bodyAcc.frag k n [c] f = f ∨ (f = none ∧ bodyAcc.frag k n [c] f = some n)) := by
  cases k with
  | body =>
    refine ⟨?_, ?_⟩
    · show f.or (some n) = none ↔ v.body ++ [c] = []
      cases f <;> simp
    · show f.or (some n) = f ∨ (f = none ∧ f.or (some n) = some n)
      cases f <;> simp
  | field => exact ⟨by show f = none ↔ v.flush.body = []; rw [flush_body]; exact h, .inl rfl⟩
  | value => exact ⟨h, .inl rfl⟩
  | status => exact ⟨h, .inl rfl⟩

theorem Placed.trans {n : Nat} {f f' : Option Nat} {y : Option Nat × St A} {z : View × St A} (h : Placed n f' y z)
    (h' : f' = f ∨ (f = none ∧ f' = some n)) : Placed n f y z := by
  refine ⟨h.1, h.2.1, ?_⟩
  rcases h' with rfl | ⟨rfl, rfl⟩
  · exact h.2.2
  · rcases h.2.2 with h | ⟨h, _⟩
    · exact .inr ⟨rfl, h⟩
    · cases h

theorem hc_body (v : View) (l : Nat) (cl : UInt64) (cc ka : Bool) : (v.step ⟨.headersComplete 0 cl cc ka, l, []⟩).body = v.body := by
  show v.flush.body = v.body
  exact flush_body v

theorem tree_placed (n : Nat) (c : UInt8) (t : MTree A) : ∀ (f : Option Nat) (v : View) (o : Option SpanK), Fresh t → (f = none ↔ v.body = []) →
    Placed n f (gTree bodyAcc hr n c t f o) (absTree hr n c t v o) := by
  fun_induction Fresh t with
  | case1 a =>
    intro f v o _ h
    cases o with
    | none => exact ⟨h, rfl, .inl rfl⟩
    | some k => exact ⟨(frag_placed h).1, rfl, (frag_placed h).2⟩
  | case2 e => intro f v o _ h; exact ⟨h, rfl, .inl rfl⟩
  | case3 a =>
    intro f v o _ h
    have e : bodyAcc.frag .body n [c] (bodyAcc.frag .body n [] f) = bodyAcc.frag .body n [c] f := by
      have := gfrag_append (G := bodyAcc) f .body n [] [c]
      simpa using this
    have e2 : (v.step (frag .body [])).step (frag .body [c]) = v.step (frag .body [c]) := frag_append v .body [] [c]
    simp only [gTree, absTree, e, e2]
    exact ⟨(frag_placed (k := .body) h).1, rfl, (frag_placed (k := .body) h).2⟩
  | case4 t ih =>
    intro f v o hf h
    have e : bodyAcc.frag .body n [c] (bodyAcc.frag .body n [] f) = bodyAcc.frag .body n [c] f := by
      have := gfrag_append (G := bodyAcc) f .body n [] [c]
      simpa using this
    have e2 : (v.step (frag .body [])).step (frag .body [c]) = v.step (frag .body [c]) := frag_append v .body [] [c]
    simp only [gTree, absTree, e, e2]
    exact (ih _ _ none hf (frag_placed h).1).trans (frag_placed h).2
  | case5 => intro f v o hf; exact hf.elim
  | case6 e t h1 h2 h3 ih =>
    intro f v o hf h
    cases e with
    | messageBegin => exact ih _ _ _ hf h
    | spanStart k =>
      cases k with
      | body => exact (h3 rfl).elim
      | field => exact ih _ _ _ hf (by show f = none ↔ v.flush.body = []; rw [flush_body]; exact h)
      | value => exact ih _ _ _ hf h
      | status => exact ih _ _ _ hf h
    | spanEnd => exact ih _ _ _ hf h
    | spanEndIncl =>
      cases o with
      | none => exact ih _ _ _ hf h
      | some k => exact (ih _ _ none hf (frag_placed h).1).trans (frag_placed h).2
    | statusComplete code => exact ih _ _ _ hf h
    | messageComplete => exact ih _ _ _ hf h
  | case7 cl cc ka t1 t2 ih1 ih2 =>
    intro f v o hf h
    have h' : ∀ l, f = none ↔ (v.step ⟨.headersComplete 0 cl cc ka, l, []⟩).body = [] := fun l => by rw [hc_body]; exact h
    cases hr with
    | continue_ => exact ih1 _ _ _ hf.1 (h' _)
    | noBody => exact ih2 _ _ _ hf.2 (h' _)
    | pause => exact ⟨h' _, rfl, .inl rfl⟩
    | user => exact ⟨h' _, rfl, .inl rfl⟩

/-- The run with the location of the body. -/
def prun (hr : CbRet) (n : Nat) (x : Option Nat × St A) (cs : Bytes) : Option Nat × St A := gRun bodyAcc http hr n x cs

theorem run_placed (cs : Bytes) : ∀ (n : Nat) (f : Option Nat) (v : View) (x : St A), (f = none ↔ v.body = []) →
    ((prun hr n (f, x) cs).1 = none ↔ (run hr n (v, x) cs).1.body = []) ∧ (prun hr n (f, x) cs).2 = (run hr n (v, x) cs).2 ∧
    (f.isSome → (prun hr n (f, x) cs).1 = f) := by
  induction cs with
  | nil => intro n f v x h; exact ⟨h, rfl, fun _ => rfl⟩
  | cons c cs ih =>
    intro n f v x h
    cases x with
    | dead e =>
      rw [show prun hr n (f, St.dead e) (c :: cs) = (f, .dead e) from gRun_dead http hr n f e (c :: cs), run_dead]
      exact ⟨h, rfl, fun _ => rfl⟩
    | live a o =>
      have ht := tree_placed (hr := hr) n c (step a c) f v o (step_fresh a c) h
      rw [run_cons, show prun hr n (f, .live a o) (c :: cs) = prun hr (n + 1) (gTree bodyAcc hr n c (step a c) f o) cs from rfl]
      rcases h1 : gTree bodyAcc hr n c (step a c) f o with ⟨f', x⟩
      rcases h2 : absTree hr n c (step a c) v o with ⟨v', x'⟩
      rw [h1, h2] at ht
      obtain ⟨t1, t2, t3⟩ := ht
      obtain rfl : x = x' := t2
      obtain ⟨i1, i2, i3⟩ := ih (n + 1) f' v' x t1
      refine ⟨i1, i2, fun hs => ?_⟩
      rcases t3 with rfl | ⟨rfl, _⟩
      · exact i3 hs
      · cases hs

/-- If there is no body data in `p` and some in `p` and the next byte, the body begins at that byte. -/
theorem place_at {p q : Bytes} {c : UInt8} (h0 : (run hr 0 (View.empty, .live .start none) p).1.body = [])
    (h1 : (run hr 0 (View.empty, .live .start none) (p ++ [c])).1.body ≠ []) :
    (prun hr 0 (none, .live .start none) (p ++ c :: q)).1 = some p.length := by
  obtain ⟨i1, i2, _⟩ := run_placed (hr := hr) p 0 none View.empty (.live .start none) (by simp [View.empty])
  have e : ∀ q, prun hr 0 (none, .live .start none) (p ++ q) = prun hr (0 + p.length) (prun hr 0 (none, .live .start none) p) q :=
    fun q => gRun_append http hr 0 _ p q
  rw [e]
  rw [run_append] at h1
  have hn := i1.mpr h0
  rcases h2 : prun hr 0 (none, .live .start none) p with ⟨f, x⟩
  rcases h3 : run hr 0 (View.empty, .live .start none) p with ⟨v, x'⟩
  rw [h2, h3] at i2
  rw [h2] at hn
  rw [h3] at h0 h1
  obtain rfl : x = x' := i2
  obtain rfl : f = none := hn
  cases x with
  | dead e => rw [run_dead] at h1; exact absurd h0 h1
  | live a o =>
    have ht := tree_placed (hr := hr) (0 + p.length) c (step a c) none v o (step_fresh a c) (by simpa using h0)
    rw [run_cons] at h1
    rw [show prun hr (0 + p.length) (none, .live a o) (c :: q) = prun hr (0 + p.length + 1) (gTree bodyAcc hr (0 + p.length) c (step a c) none o) q from rfl]
    rcases h4 : gTree bodyAcc hr (0 + p.length) c (step a c) none o with ⟨f', x⟩
    rcases h5 : absTree hr (0 + p.length) c (step a c) v o with ⟨v', x'⟩
    rw [h4, h5] at ht
    rw [h5] at h1
    obtain ⟨t1, t2, t3⟩ := ht
    have hne : f' ≠ none := fun h => h1 (t1.mp h)
    have hf : f' = some p.length := by
      rcases t3 with h | ⟨_, h⟩
      · exact absurd h hne
      · rw [Nat.zero_add] at h; exact h
    subst hf
    obtain ⟨_, _, k3⟩ := run_placed (hr := hr) q (0 + p.length + 1) (some p.length) v' x t1
    exact k3 rfl

theorem body_mono {p q : Bytes} (h : (run hr 0 (View.empty, .live .start none) p).1.body ≠ []) :
    (run hr 0 (View.empty, .live .start none) (p ++ q)).1.body ≠ [] := by
  rw [run_append]
  have hl := (run_le (hr := hr) q (0 + p.length) (run hr 0 (View.empty, .live .start none) p)).body
  intro h'
  rw [h'] at hl
  exact h (List.prefix_nil.mp hl)

theorem place_before {p : Bytes} (h0 : (run hr 0 (View.empty, .live .start none) p).1.body = []) :
    (prun hr 0 (none, .live .start none) p).1 = none :=
  (run_placed (hr := hr) p 0 none View.empty (.live .start none) (by simp [View.empty])).1.mpr h0

/-- The first body byte of a response. -/
theorem first_byte {head : Bool} {r : Response} (ok : r.Ok head) {q : Nat} (hq : r.bodyAt = some q) :
    ∃ pre c post, r.bytes = pre ++ c :: post ∧ pre.length = q ∧ r.content.data.head? = some c ∧
      (run (answerTo head) 0 (View.empty, .live .start none) pre).1.body = [] ∧
      (run (answerTo head) 0 (View.empty, .live .start none) (pre ++ [c])).1.body ≠ [] := by
  have hu : answerTo head = .continue_ ∨ answerTo head = .noBody := by cases head <;> simp [answerTo]
  have hlen0 : r.lengths = [] → r.statedLength = 0 := by intro h; unfold Response.statedLength; rw [h]
  have hlen1 : ∀ n, r.SaysLength n → r.statedLength = n := by
    rintro n ⟨⟨f, h1, h2⟩, _⟩
    unfold Response.statedLength; rw [h1]; simp [h2]
  have hplain := (notes_spec r.fields ⟨minorOf r.version, r.code, none, false, false, false⟩).1
  have hsays := (notes_spec r.fields ⟨minorOf r.version, r.code, none, false, false, false⟩).2
  have hok := ok.content
  unfold Response.bodyAt at hq
  rcases hc : r.content with _ | d | ⟨cs, ls, le, ts⟩ <;> rw [hc] at hok hq <;> dsimp only at hok hq
  · cases hq
  · obtain ⟨hh, hs⟩ := hok
    subst hh
    cases d with
    | nil => rw [if_pos rfl] at hq; cases hq
    | cons c d =>
      rw [if_neg (by simp)] at hq
      cases hq
      obtain ⟨⟨f, h1, h2⟩, h3, h4⟩ := id hs
      have hn := hsays f (d.length + 1) h1 h2 h3 h4 rfl rfl
      obtain ⟨w, v, a, e1, e2, e3, e4⟩ := head_run ok.code.2 ok.reason ok.fields hn (by simpa using (hlen1 _ hs).symm) hu
      rw [if_neg (by decide)] at e4
      simp only [afterHeaders, Bool.false_eq_true, if_false, Bool.false_or, absTree] at e4
      refine ⟨r.head, c, d, by simp [Response.bytes, hc, Content.bytes], rfl, rfl, ?_, ?_⟩
      · rw [e4]; rfl
      · rw [run_append, e4, run_cons, run_nil]
        cases d <;> simp [step, absTree, View.step, frag, SpanK.ev, finish]
  · obtain ⟨hh, hl, hte, hcs, hls, hle, hts⟩ := hok
    subst hh
    cases cs with
    | nil => cases hq
    | cons k cs =>
      cases hq
      have hn := hplain ⟨hl, .inl rfl⟩
      obtain ⟨w, v, a, e1, e2, e3, e4⟩ := head_run ok.code.2 ok.reason ok.fields hn (by simpa using (hlen0 hl).symm) hu
      have hany : r.fields.any isChunked = true := by
        obtain ⟨f, q1, q2, q3⟩ := hte
        rw [List.any_eq_true]
        exact ⟨f, q1, by simp [isChunked, q2, q3]⟩
      rw [hany] at e4
      rw [if_neg (by decide)] at e4
      simp only [afterHeaders, Bool.false_or, if_true, absTree] at e4
      have hk := hcs k List.mem_cons_self
      rcases hd : k.data with _ | ⟨c, d⟩
      · exact absurd hd hk.nonempty
      generalize hV : headView r (r.fields.any (isConn "close")) (r.fields.any (isConn "keep-alive")) = V at e4
      have hVb : V.body = [] := by rw [← hV]; rfl
      have hrun := run_then (hr := answerTo false) e4 (run_then (sizeLine_run (n := _) hk.size hk.ext V)
        (run_then (ds := []) (cs := [10]) (z := (V, .live (.chunkStart _ (k.data.length - 1)) none)) (by rw [hd]; rfl) rfl))
      have hpre : r.head ++ (k.size ++ k.ext ++ crlf) = r.head ++ ((k.size ++ k.ext ++ [13]) ++ ([10] ++ [])) := by simp [crlf]
      refine ⟨r.head ++ (k.size ++ k.ext ++ crlf), c, d ++ crlf ++ ((cs.map Chunk.bytes).flatten ++ (ls ++ le ++ crlf ++ section_ ts)), ?_, ?_, ?_, ?_, ?_⟩
      · simp [Response.bytes, hc, Content.bytes, Chunk.bytes, hd]
      · simp
      · simp [Content.data, hd]
      · rw [hpre, hrun]; exact hVb
      · rw [hpre, run_append, hrun, run_cons, run_nil, hd]
        cases d <;> simp [step, absTree, View.step, frag, SpanK.ev]

/-- No body, no body location. -/
theorem no_body_at {head : Bool} {r : Response} (ok : r.Ok head) : r.bodyAt = none ↔ r.content.data = [] := by
  have hok := ok.content
  unfold Response.bodyAt
  rcases hc : r.content with _ | d | ⟨_ | ⟨k, cs⟩, ls, le, ts⟩ <;> rw [hc] at hok <;> dsimp only at hok ⊢
  · simp [Content.data]
  · split <;> simp [Content.data, *]
  · simp [Content.data]
  · simp [Content.data, (hok.2.2.2.1 k List.mem_cons_self).nonempty]

/-- Where the body of a response is found, however much of it there is. -/
theorem response_place {head : Bool} {r : Response} (ok : r.Ok head) {p : Bytes} (hp : p <+: r.bytes) :
    (prun (answerTo head) 0 (none, .live .start none) p).1 = r.bodyAt.filter (fun q => decide (q < p.length)) := by
  cases hq : r.bodyAt with
  | none =>
    refine place_before ?_
    have := (part_run ok hp).2.2.2.2.1
    rw [(no_body_at ok).mp hq] at this
    exact List.prefix_nil.mp this
  | some q =>
    obtain ⟨pre, c, post, h1, rfl, _, h2, h3⟩ := first_byte ok hq
    rw [h1] at hp
    rw [Option.filter_some]
    by_cases hlt : pre.length < p.length
    · rw [if_pos (by simpa using hlt)]
      have hpp : (pre ++ [c]) <+: p := List.prefix_of_prefix_length_le (l₃ := pre ++ c :: post) ⟨post, by simp⟩ hp (by simp; omega)
      obtain ⟨q, rfl⟩ := hpp
      rw [List.append_assoc]
      exact place_at h2 h3
    · rw [if_neg (by simpa using hlt)]
      refine place_before ?_
      have hpp : p <+: pre := List.prefix_of_prefix_length_le (l₃ := pre ++ c :: post) hp ⟨_, rfl⟩ (by omega)
      obtain ⟨q, rfl⟩ := hpp
      exact Classical.byContradiction fun h => body_mono (q := q) h h2

/-- The same for a body that ends with the connection. -/
theorem eof_place {r : Response} (ok : r.UntilClose) {p data : Bytes} (hp : p <+: r.head ++ data) :
    (prun .continue_ 0 (none, .live .start none) p).1 = if r.head.length < p.length then some r.head.length else none := by
  by_cases hlt : r.head.length < p.length
  · rw [if_pos hlt]
    have hpp : r.head <+: p := List.prefix_of_prefix_length_le (l₃ := r.head ++ data) ⟨_, rfl⟩ hp (by omega)
    obtain ⟨q, rfl⟩ := hpp
    cases q with
    | nil => simp at hlt
    | cons c q =>
      have hd : c :: q <+: data := (List.prefix_append_right_inj _).mp hp
      obtain ⟨t, rfl⟩ := hd
      refine place_at ?_ ?_
      · obtain ⟨v, a, o, e, _, _, _, _, _, hb, _⟩ := eof_run ok (p := r.head) (data := c :: q ++ t) ⟨_, rfl⟩
        rw [e]; dsimp only; rw [hb]; simp
      · obtain ⟨v, a, o, e, _, _, _, _, _, hb, _⟩ := eof_run ok (p := r.head ++ [c]) (data := c :: q ++ t) ⟨q ++ t, by simp⟩
        rw [e]; dsimp only; rw [hb]; simp
  · rw [if_neg hlt]
    refine place_before ?_
    obtain ⟨v, a, o, e, _, _, _, _, _, hb, _⟩ := eof_run ok hp
    rw [e]; dsimp only; rw [hb]; exact List.drop_eq_nil_of_le (by omega)

end CoreHttp.Ref

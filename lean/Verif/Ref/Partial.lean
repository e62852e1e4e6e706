import Verif.Ref.RoundTripPrefix
import Verif.Ref.Lookup

/-! # What the reference parser has found in a prefix of a well-formed response is part of that response -/

namespace CoreHttp.Ref
open Spec Machine

variable {hr : CbRet}

/-- `v'` has at least what `v` has. -/
structure Le (v v' : View) : Prop where
  headers : v.headers <+: v'.headers
  body : v.body <+: v'.body
  begun : v.state ≠ .none → v'.state ≠ .none

theorem Le.refl (v : View) : Le v v := ⟨List.prefix_refl _, List.prefix_refl _, id⟩
theorem Le.trans {u v w : View} (h1 : Le u v) (h2 : Le v w) : Le u w :=
  ⟨h1.headers.trans h2.headers, h1.body.trans h2.body, fun h => h2.begun (h1.begun h)⟩

theorem step_le (v : View) (o : PObs) : Le v (v.step o) := by
  have hf : Le v v.flush := by
    unfold View.flush; split
    · exact ⟨List.prefix_append _ _, List.prefix_refl _, id⟩
    · exact Le.refl v
  unfold View.step
  cases o.ev with
  | messageBegin => exact ⟨List.prefix_refl _, List.prefix_refl _, fun _ => by simp⟩
  | status => exact ⟨List.prefix_refl _, List.prefix_refl _, id⟩
  | statusComplete => exact ⟨List.prefix_refl _, List.prefix_refl _, id⟩
  | headerField => exact ⟨hf.headers, hf.body, hf.begun⟩
  | headerValue => exact ⟨List.prefix_refl _, List.prefix_refl _, id⟩
  | headersComplete => exact ⟨hf.headers, hf.body, hf.begun⟩
  | body => exact ⟨List.prefix_refl _, List.prefix_append _ _, id⟩
  | messageComplete => exact ⟨List.prefix_refl _, List.prefix_refl _, fun _ => by simp⟩

theorem absTree_le (t : MTree A) : ∀ (n : Nat) (c : UInt8) (v : View) (o : Option SpanK), Le v (absTree hr n c t v o).1 := by
  induction t with
  | done a =>
    intro n c v o
    cases o with
    | none => exact Le.refl _
    | some k => exact step_le _ _
  | fail e => intro n c v o; exact Le.refl _
  | act e t ih =>
    intro n c v o
    cases e with
    | messageBegin => exact Le.trans (step_le _ _) (ih _ _ _ _)
    | spanStart k => exact Le.trans (step_le _ _) (ih _ _ _ _)
    | spanEnd => exact ih _ _ _ _
    | spanEndIncl =>
      cases o with
      | none => exact ih _ _ _ _
      | some k => exact Le.trans (step_le _ _) (ih _ _ _ _)
    | statusComplete code => exact Le.trans (step_le _ _) (ih _ _ _ _)
    | messageComplete => exact Le.trans (step_le _ _) (ih _ _ _ _)
  | headers cl cc ka t1 t2 ih1 ih2 =>
    intro n c v o
    cases hr with
    | continue_ => exact Le.trans (step_le _ _) (ih1 _ _ _ _)
    | noBody => exact Le.trans (step_le _ _) (ih2 _ _ _ _)
    | pause => exact step_le v ⟨.headersComplete 0 cl cc ka, n + 1, []⟩
    | user => exact step_le v ⟨.headersComplete 0 cl cc ka, n + 1, []⟩

/-- Nothing found is lost again. -/
theorem run_le (cs : Bytes) : ∀ (n : Nat) (x : View × St A), Le x.1 (run hr n x cs).1 := by
  induction cs with
  | nil => intro n x; exact Le.refl _
  | cons c cs ih =>
    intro n x
    obtain ⟨v, a | e⟩ := x
    · rw [run_cons]; exact Le.trans (absTree_le _ _ _ _ _) (ih _ _)
    · rw [run_dead]; exact Le.refl _

/-- After the status line. -/
def A.post : A → Bool
  | .start | .proto _ | .minor | .verSp _ | .code _ _ _ | .reasonStart _ _ | .reason _ _ | .lineLF _ _ => false
  | _ => true

/-- After the header section. -/
def A.after : A → Bool
  | .hdr _ tr _ | .field _ tr _ _ | .valueWs _ tr _ | .value _ tr _ _ | .valLF _ tr _ _ | .endLF _ tr _ => tr
  | a => a.post

/-- What stays the same after the header section. -/
structure Same (v v' : View) : Prop where
  contentLength : v'.contentLength = v.contentLength
  connClose : v'.connClose = v.connClose
  keepAlive : v'.keepAlive = v.keepAlive
  headersEnd : v'.headersEnd = v.headersEnd

theorem flush_same (v : View) : Same v v.flush ∧ v.flush.statusCode = v.statusCode := by
  unfold View.flush; split <;> exact ⟨⟨rfl, rfl, rfl, rfl⟩, rfl⟩

theorem frag_same (v : View) (k : SpanK) (d : Bytes) : Same v (v.step (frag k d)) := by
  obtain ⟨h, _⟩ := flush_same v
  cases k with
  | field => exact ⟨h.contentLength, h.connClose, h.keepAlive, h.headersEnd⟩
  | _ => exact ⟨rfl, rfl, rfl, rfl⟩

theorem frag_code (v : View) (k : SpanK) (d : Bytes) (hk : ∀ n, k ≠ .status n) : (v.step (frag k d)).statusCode = v.statusCode := by
  cases k with
  | field => exact (flush_same v).2
  | status n => exact absurd rfl (hk n)
  | _ => rfl

/-- The actions report no status, and no end of the header section unless `hs`; they lead to states that satisfy `p`, unless a message begins. -/
def Quiet (hs : Bool) (p : A → Bool) : MTree A → Prop
  | .done a => p a = true
  | .fail _ => True
  | .act .messageBegin _ => True
  | .act (.spanStart k) t => (∀ n, k ≠ .status n) ∧ Quiet hs p t
  | .act (.statusComplete _) _ => False
  | .act _ t => Quiet hs p t
  | .headers _ _ _ t1 t2 => hs = true ∧ Quiet hs p t1 ∧ Quiet hs p t2

theorem finish_quiet {hs : Bool} {p : A → Bool} (h : ∀ cl, p (.complete cl) = true) (i : Info) : Quiet hs p (finish i) := h _

theorem afterHeaders_quiet {hs : Bool} {p : A → Bool} (h : ∀ a, A.after a = true → p a = true) (i : Info) : Quiet hs p (afterHeaders i) := by
  unfold afterHeaders
  (repeat' split) <;> first | exact h _ rfl | exact finish_quiet (fun _ => h _ rfl) i

theorem after_post {a : A} (h : a.after = true) : a.post = true := by cases a <;> first | rfl | exact h

theorem post_quiet (a : A) (ha : a.post = true) (c : UInt8) : Quiet true A.post (step a c) := by
  cases a with
  | endLF i tr any =>
    simp only [step]
    have hf : Quiet true A.post (finish i) := finish_quiet (fun _ => rfl) i
    have hh : Quiet true A.post (.headers (UInt64.ofNat (i.cl.getD 0)) i.close i.keepAlive (afterHeaders i) (finish i)) :=
      ⟨rfl, afterHeaders_quiet (fun a h => after_post h) i, hf⟩
    (repeat' split) <;> first | trivial | assumption
  | bodyStart i k => cases k <;> simp [step, Quiet, finish, A.post]
  | bodyIn i k => cases k <;> simp [step, Quiet, finish, A.post]
  | chunkStart i k => cases k <;> simp [step, Quiet, A.post]
  | chunkIn i k => cases k <;> simp [step, Quiet, A.post]
  | _ =>
    first
      | (simp only [A.post, Bool.false_eq_true] at ha; done)
      | (simp only [step]; (repeat' split) <;> simp [Quiet, A.post])

theorem after_quiet (a : A) (ha : a.after = true) (c : UInt8) : Quiet false A.after (step a c) := by
  cases a with
  | endLF i tr any =>
    have ha : tr = true := ha
    subst ha
    simp only [step, if_true]
    split
    · exact finish_quiet (fun _ => rfl) i
    · trivial
  | bodyStart i k => cases k <;> simp [step, Quiet, finish, A.after, A.post]
  | bodyIn i k => cases k <;> simp [step, Quiet, finish, A.after, A.post]
  | chunkStart i k => cases k <;> simp [step, Quiet, A.after, A.post]
  | chunkIn i k => cases k <;> simp [step, Quiet, A.after, A.post]
  | _ =>
    first
      | (simp only [A.after, A.post, Bool.false_eq_true] at ha; done)
      | (simp only [A.after, A.post] at ha; simp only [step]; (repeat' split) <;> simp_all [Quiet, A.after, A.post])

theorem quiet_tree {hs : Bool} {p : A → Bool} (t : MTree A) : ∀ (n : Nat) (c : UInt8) (v : View) (o : Option SpanK), Quiet hs p t →
    (∀ k, o ≠ some (.status k)) → (absTree hr n c t v o).1.messages ≤ v.messages →
    (absTree hr n c t v o).1.statusCode = v.statusCode ∧ (hs = false → Same v (absTree hr n c t v o).1) ∧
      ∀ a o', (absTree hr n c t v o).2 = .live a o' → p a = true ∧ ∀ k, o' ≠ some (.status k) := by
  have tr : ∀ {u v w : View}, Same u v → Same v w → Same u w := fun h1 h2 =>
    ⟨h2.1.trans h1.1, h2.2.trans h1.2, h2.3.trans h1.3, h2.4.trans h1.4⟩
  have fr : ∀ (v : View) (k : SpanK) (d : Bytes), (v.step (frag k d)).messages = v.messages := by
    intro v k d
    have hf : v.flush.messages = v.messages := by unfold View.flush; split <;> rfl
    cases k <;> simp [View.step, frag, SpanK.ev, hf]
  induction t with
  | done a =>
    intro n c v o hq ho _
    cases o with
    | none => exact ⟨rfl, fun _ => ⟨rfl, rfl, rfl, rfl⟩, fun a' o' h => by cases h; exact ⟨hq, ho⟩⟩
    | some k =>
      exact ⟨frag_code _ _ _ fun m h => ho m (by rw [h]), fun _ => frag_same _ _ _, fun a' o' h => by cases h; exact ⟨hq, ho⟩⟩
  | fail e => intro n c v o hq ho _; exact ⟨rfl, fun _ => ⟨rfl, rfl, rfl, rfl⟩, fun a' o' h => by cases h⟩
  | act e t ih =>
    intro n c v o hq ho hm
    cases e with
    | messageBegin =>
      have := absTree_messages (hr := hr) t n c (v.step ⟨.messageBegin, 0, []⟩) o
      simp only [absTree] at hm
      have h1 : (v.step ⟨.messageBegin, 0, []⟩).messages = v.messages + 1 := rfl
      omega
    | spanStart k =>
      simp only [absTree] at hm ⊢
      obtain ⟨a1, a2, a3⟩ := ih n c (v.step (frag k [])) (some k) hq.2 (fun m h => hq.1 m (Option.some.inj h)) (by rw [fr]; exact hm)
      exact ⟨a1.trans (frag_code _ _ _ hq.1), fun h => tr (frag_same _ _ _) (a2 h), a3⟩
    | spanEnd => exact ih n c v none hq (fun _ h => by cases h) hm
    | spanEndIncl =>
      cases o with
      | none => exact ih n c v none hq (fun _ h => by cases h) hm
      | some k =>
        simp only [absTree] at hm ⊢
        obtain ⟨a1, a2, a3⟩ := ih n c (v.step (frag k [c])) none hq (fun _ h => by cases h) (by rw [fr]; exact hm)
        exact ⟨a1.trans (frag_code _ _ _ fun m h => ho m (by rw [h])), fun h => tr (frag_same _ _ _) (a2 h), a3⟩
    | statusComplete code => exact hq.elim
    | messageComplete =>
      obtain ⟨a1, a2, a3⟩ := ih n c (v.step ⟨.messageComplete, 0, []⟩) o hq ho hm
      exact ⟨a1, fun h => tr (u := v) (v := v.step ⟨.messageComplete, 0, []⟩) ⟨rfl, rfl, rfl, rfl⟩ (a2 h), a3⟩
  | headers cl cc ka t1 t2 ih1 ih2 =>
    intro n c v o hq ho hm
    obtain ⟨rfl, hq1, hq2⟩ := hq
    have hs : (v.step ⟨.headersComplete 0 cl cc ka, n + 1, []⟩).statusCode = v.statusCode := (flush_same v).2
    have hm1 : (v.step ⟨.headersComplete 0 cl cc ka, n + 1, []⟩).messages = v.messages := by
      show v.flush.messages = v.messages
      unfold View.flush; split <;> rfl
    cases hr with
    | continue_ =>
      obtain ⟨a1, a2, a3⟩ := ih1 n c (v.step ⟨.headersComplete 0 cl cc ka, n + 1, []⟩) o hq1 ho (by rw [hm1]; exact hm)
      exact ⟨a1.trans hs, Bool.noConfusion, a3⟩
    | noBody =>
      obtain ⟨a1, a2, a3⟩ := ih2 n c (v.step ⟨.headersComplete 0 cl cc ka, n + 1, []⟩) o hq2 ho (by rw [hm1]; exact hm)
      exact ⟨a1.trans hs, Bool.noConfusion, a3⟩
    | pause => exact ⟨hs, Bool.noConfusion, fun a o' h => by cases h⟩
    | user => exact ⟨hs, Bool.noConfusion, fun a o' h => by cases h⟩

theorem quiet_run {hs : Bool} {p : A → Bool} (hp : ∀ a, p a = true → ∀ c, Quiet hs p (step a c)) (cs : Bytes) :
    ∀ (n : Nat) (v : View) (a : A) (o : Option SpanK), p a = true → (∀ k, o ≠ some (.status k)) →
    (run hr n (v, .live a o) cs).1.messages ≤ v.messages →
    (run hr n (v, .live a o) cs).1.statusCode = v.statusCode ∧ (hs = false → Same v (run hr n (v, .live a o) cs).1) := by
  induction cs with
  | nil => intro n v a o _ _ _; exact ⟨rfl, fun _ => ⟨rfl, rfl, rfl, rfl⟩⟩
  | cons c cs ih =>
    intro n v a o ha ho hm
    rw [run_cons] at hm ⊢
    have hm1 := run_messages (hr := hr) cs (n + 1) (absTree hr n c (step a c) v o)
    obtain ⟨a1, a2, a3⟩ := quiet_tree (hr := hr) (step a c) n c v o (hp a ha c) ho (Nat.le_trans hm1 hm)
    have hm2 := absTree_messages (hr := hr) (step a c) n c v o
    rcases hx : absTree hr n c (step a c) v o with ⟨v1, a' | e⟩
    · rename_i o'
      rw [hx] at a1 a2 a3 hm hm1 hm2
      obtain ⟨b1, b2⟩ := a3 a' o' rfl
      obtain ⟨c1, c2⟩ := ih (n + 1) v1 a' o' b1 b2 (Nat.le_trans hm hm2)
      refine ⟨c1.trans a1, fun h => ?_⟩
      have h1 := a2 h
      have h2 := c2 h
      exact ⟨h2.1.trans h1.1, h2.2.trans h1.2, h2.3.trans h1.3, h2.4.trans h1.4⟩
    · rw [hx] at a1 a2
      rw [run_dead]
      exact ⟨a1, a2⟩

theorem prefix_split {α : Type} {p a b : List α} (h : p <+: a ++ b) : p <+: a ∨ ∃ t, p = a ++ t ∧ t <+: b := by
  rcases List.prefix_or_prefix_of_prefix h (List.prefix_append a b) with h1 | ⟨t, rfl⟩
  · exact .inl h1
  · exact .inr ⟨t, rfl, (List.prefix_append_right_inj a).mp h⟩

theorem digits_run {x y z : UInt8} (hx : isDigit x = true) (hy : isDigit y = true) (hz : isDigit z = true) (n : Nat) (v : View) (hv : v.statusCode = 0) :
    (run hr n (v, .live (.code (minorOf ver) 0 0) none) [x]).1.statusCode = 0 ∧ (run hr n (v, .live (.code (minorOf ver) 0 0) none) [x, y]).1.statusCode = 0 ∧
    (run hr n (v, .live (.code (minorOf ver) 0 0) none) [x, y, z]).1.statusCode = 0 := by
  simp [run_cons, step, hx, hy, hz, absTree, run_nil, hv]

/-- In the status line, the status code is not known yet or right. -/
theorem line_prefix {code : Nat} {ver : Version} (hc : code ≤ 999) (reason : Bytes) (h : ∀ c ∈ reason, c ≠ 13 ∧ c ≠ 10) {p : Bytes}
    (hp : p <+: ver.text ++ digits3 code ++ [32] ++ reason ++ crlf) :
    (run hr 0 (View.empty, .live .start none) p).1.statusCode = 0 ∨ (run hr 0 (View.empty, .live .start none) p).1.statusCode = code % 65536 := by
  have d1 := digit_ok (k := code / 100) (by omega)
  have d2 := digit_ok (k := code / 10 % 10) (by omega)
  have d3 := digit_ok (k := code % 10) (by omega)
  have e1 : run hr 0 (View.empty, .live .start none) (ver.text) =
      ({ View.empty with messages := 1, state := .incomplete }, .live (.code (minorOf ver) 0 0) none) := by cases ver <;> rfl
  have e2 : run hr (0 + (ver.text).length) ({ View.empty with messages := 1, state := .incomplete }, .live (.code (minorOf ver) 0 0) none)
      (digits3 code ++ [32]) = ({ View.empty with messages := 1, state := .incomplete }, .live (.reasonStart (minorOf ver) code) none) := by
    unfold digits3
    simp only [List.cons_append, List.nil_append, run_cons, step, show (0 : Nat) < 3 by decide, if_true, d1, absTree, show (0 + 1 : Nat) < 3 by decide, d2,
      show (0 + 1 + 1 : Nat) < 3 by decide, d3, run_nil, show ¬ (0 + 1 + 1 + 1 : Nat) < 3 by decide, if_false]
    rw [show 10 * (10 * (10 * 0 + code / 100) + code / 10 % 10) + code % 10 = code by omega]
  rw [show ver.text ++ digits3 code ++ [32] ++ reason ++ crlf = ver.text ++ ((digits3 code ++ [32]) ++ (reason ++ crlf)) by simp] at hp
  rcases prefix_split hp with hp | ⟨t0, rfl, hp0⟩
  · left
    have : ∀ k, (run hr 0 (View.empty, .live .start none) ((ver.text).take k)).1.statusCode = 0 := by
      intro k
      match k with
      | 0 | 1 | 2 | 3 | 4 | 5 | 6 | 7 | 8 => cases ver <;> rfl
      | k + 9 => rw [List.take_of_length_le (by cases ver <;> simp [Version.text, ascii])]; cases ver <;> rfl
    rw [List.prefix_iff_eq_take.mp hp]
    exact this _
  · clear hp
    rcases prefix_split hp0 with hp | ⟨t, rfl, hp⟩
    · left
      have : ∀ k, (run hr 0 (View.empty, .live .start none) (ver.text ++ (digits3 code ++ [32]).take k)).1.statusCode = 0 := by
        intro k
        rw [run_then e1 rfl]
        match k with
        | 0 => rfl
        | 1 => exact (digits_run d1.1 d2.1 d3.1 _ _ rfl).1
        | 2 => exact (digits_run d1.1 d2.1 d3.1 _ _ rfl).2.1
        | 3 => exact (digits_run d1.1 d2.1 d3.1 _ _ rfl).2.2
        | k + 4 =>
          rw [List.take_of_length_le (by simp [digits3]), e2]; rfl
      rw [List.prefix_iff_eq_take.mp hp]
      exact this _
    · rw [run_then e1 (run_then e2 rfl)]
      have h2 : ∀ s : Bytes, s <+: crlf → s = [] ∨ s = [13] ∨ s = [13, 10] := by
        rintro s hs
        match s, hs with
        | [], _ => exact .inl rfl
        | [a], hs => exact .inr (.inl (by rw [(List.cons_prefix_cons.mp hs).1]))
        | [a, b], hs =>
          obtain ⟨h1, hs⟩ := List.cons_prefix_cons.mp hs
          exact .inr (.inr (by rw [h1, (List.cons_prefix_cons.mp hs).1]))
        | a :: b :: c :: s, hs => have := hs.length_le; simp [crlf] at this
      generalize (0 + (ver.text).length + (digits3 code ++ [32]).length) = n
      cases reason with
      | nil => rcases h2 t hp with rfl | rfl | rfl <;> simp [run_cons, step, absTree, run_nil, View.empty, View.step]
      | cons c reason =>
        cases t with
        | nil => left; rfl
        | cons d t =>
          right
          obtain ⟨rfl, hp1⟩ := List.cons_prefix_cons.mp hp
          clear hp
          obtain ⟨h3, h4⟩ := h d List.mem_cons_self
          rw [run_cons]
          simp only [step, if_neg h3, if_neg h4, absTree, frag_append]
          have h' : ∀ c ∈ reason, c ≠ 13 ∧ c ≠ 10 := fun c hc => h c (List.mem_cons_of_mem _ hc)
          rcases prefix_split hp1 with hp | ⟨s, rfl, hp⟩
          · rw [reason_run _ t (fun c hc => h' c (hp.subset hc))]; rfl
          · rw [run_then (reason_run _ reason h' _ _) rfl]
            rcases h2 s hp with rfl | rfl | rfl <;> simp [run_cons, step, absTree, run_nil, View.empty, View.step, frag, SpanK.ev]

/-- What is known of a message when its header section has been read. -/
structure HeadSeen (r : Response) (v : View) : Prop where
  statusCode : v.statusCode = r.code
  headers : (r.fields.map fun f => (f.name, f.value, r.code)) <+: v.headers
  contentLength : v.contentLength = some (UInt64.ofNat r.statedLength)
  connClose : v.connClose = r.fields.any (isConn "close")
  keepAlive : v.keepAlive = r.fields.any (isConn "keep-alive")
  headersEnd : v.headersEnd = some r.head.length

/-- A beginning of a header section followed by anything, as long as no other message begins. -/
theorem seen_run {r : Response} {i : Info} (hcode : r.code ≤ 999) (hreason : ∀ c ∈ r.reason, c ≠ 13 ∧ c ≠ 10)
    (hfields : ∀ f ∈ r.fields, FieldOk f) (hi : notes ⟨minorOf r.version, r.code, none, false, false, false⟩ r.fields = .ok i)
    (hcl : i.cl.getD 0 = r.statedLength) (hcc : i.close = r.fields.any (isConn "close")) (hka : i.keepAlive = r.fields.any (isConn "keep-alive"))
    (hu : hr = .continue_ ∨ hr = .noBody) {p rest : Bytes} (hp : p <+: r.head ++ rest)
    (hm : (run hr 0 (View.empty, .live .start none) p).1.messages ≤ 1) :
    ((run hr 0 (View.empty, .live .start none) p).1.statusCode = 0 ∨ (run hr 0 (View.empty, .live .start none) p).1.statusCode = r.code) ∧
    (r.head <+: p → HeadSeen r (run hr 0 (View.empty, .live .start none) p).1) ∧
    (p ≠ [] → (run hr 0 (View.empty, .live .start none) p).1.state ≠ .none) := by
  have hmod : r.code % 65536 = r.code := Nat.mod_eq_of_lt (by omega)
  have hline := line_run r.version (hr := hr) hcode r.reason hreason 0
  have he : r.head = (r.version.text ++ digits3 r.code ++ [32] ++ r.reason ++ crlf) ++ section_ r.fields := rfl
  refine ⟨?_, ?_, ?_⟩
  · rw [he, List.append_assoc] at hp
    rcases prefix_split hp with h | ⟨t, rfl, _⟩
    · rw [← hmod]; exact line_prefix hcode r.reason hreason h
    · right
      rw [run_then hline rfl] at hm ⊢
      rw [(quiet_run post_quiet t _ _ _ _ rfl (fun _ h => by cases h) hm).1]
      exact hmod
  · rintro ⟨q, rfl⟩
    obtain ⟨_, _, _, _, _, _, e4⟩ := head_run hcode hreason hfields hi hcl hu
    have key : ∃ v a, run hr 0 (View.empty, .live .start none) r.head = (v, .live a none) ∧ a.after = true ∧ 1 ≤ v.messages ∧ HeadSeen r v := by
      have hs : ∀ v, v.statusCode = (headView r i.close i.keepAlive).statusCode → v.headers = (headView r i.close i.keepAlive).headers →
          Same (headView r i.close i.keepAlive) v → HeadSeen r v := by
        intro v h1 h2 h3
        exact ⟨h1, by rw [h2]; exact List.prefix_refl _, h3.1, h3.2.trans hcc, h3.3.trans hka, h3.4⟩
      have hf : ∃ v a, absTree hr 0 0 (finish i) (headView r i.close i.keepAlive) none = (v, .live a none) ∧ a.after = true ∧ 1 ≤ v.messages ∧
          HeadSeen r v := ⟨_, _, rfl, rfl, Nat.le_refl _, hs _ rfl rfl ⟨rfl, rfl, rfl, rfl⟩⟩
      rw [e4]
      split
      · exact hf
      · unfold afterHeaders
        (repeat' split) <;> first | exact hf | exact ⟨_, _, rfl, rfl, Nat.le_refl _, hs _ rfl rfl ⟨rfl, rfl, rfl, rfl⟩⟩
    obtain ⟨v, a, k1, k2, k3, k4⟩ := key
    rw [run_then k1 rfl] at hm ⊢
    obtain ⟨b1, b2⟩ := quiet_run after_quiet q (0 + r.head.length) v a none k2 (fun _ h => by cases h) (Nat.le_trans hm k3)
    obtain ⟨c1, c2, c3, c4⟩ := b2 rfl
    exact ⟨b1.trans k4.1, k4.2.trans (run_le (hr := hr) q (0 + r.head.length) (v, .live a none)).headers, c1.trans k4.3, c2.trans k4.4, c3.trans k4.5, c4.trans k4.6⟩
  · intro hne
    cases p with
    | nil => exact absurd rfl hne
    | cons c p =>
      have h72 : c = 72 := by
        rw [he] at hp
        cases hver : r.version <;> rw [hver] at hp <;> exact (List.cons_prefix_cons.mp hp).1
      subst h72
      rw [run_cons]
      exact (run_le p _ _).begun (by simp [step, absTree, View.step])

/-- **A prefix of a well-formed response**: everything found is part of the response, and all of the header section when it is there. -/
theorem part_run {head : Bool} {r : Response} (ok : r.Ok head) {p : Bytes} (hp : p <+: r.bytes) :
    ((run (answerTo head) 0 (View.empty, .live .start none) p).1.statusCode = 0 ∨
      (run (answerTo head) 0 (View.empty, .live .start none) p).1.statusCode = r.code) ∧
    (r.head <+: p → HeadSeen r (run (answerTo head) 0 (View.empty, .live .start none) p).1) ∧
    (p ≠ [] → (run (answerTo head) 0 (View.empty, .live .start none) p).1.state ≠ .none) ∧
    (run (answerTo head) 0 (View.empty, .live .start none) p).1.headers <+:
      (r.fields ++ r.content.trailers.dropLast).map (fun f => (f.name, f.value, r.code)) ∧
    (run (answerTo head) 0 (View.empty, .live .start none) p).1.body <+: r.content.data ∧
    (run (answerTo head) 0 (View.empty, .live .start none) p).1.messages ≤ 1 := by
  obtain ⟨_, _, _, _, _, _, _, _, e4⟩ := response_run ok
  obtain ⟨q, hq⟩ := id hp
  obtain ⟨i, hi, hcl, hic, hik⟩ := notes_ok ok
  have hl := run_le (hr := answerTo head) q (0 + p.length) (run (answerTo head) 0 (View.empty, .live .start none) p)
  have hm := run_messages (hr := answerTo head) q (0 + p.length) (run (answerTo head) 0 (View.empty, .live .start none) p)
  rw [← hq, run_append] at e4
  rw [e4] at hl hm
  obtain ⟨a1, a2, a3⟩ := seen_run (hr := answerTo head) ok.code.2 ok.reason ok.fields hi hcl hic hik
    (by cases head <;> simp [answerTo]) hp hm
  refine ⟨a1, a2, a3, ?_, hl.body, hm⟩
  have := hl.headers
  simpa [finalView, List.map_dropLast] using this

/-! ### Bodies that end with the connection -/

theorem eof_body (cs : Bytes) : ∀ (n : Nat) (v : View) (d : Bytes),
    run hr n (v.step (frag .body d), .live .eofIn (some .body)) cs = (v.step (frag .body (d ++ cs)), .live .eofIn (some .body)) := by
  induction cs with
  | nil => intro n v d; simp [run_nil]
  | cons c cs ih => intro n v d; rw [run_cons]; simp only [step, absTree, frag_append, ih]; simp

/-- **A beginning of a response whose body ends with the connection**: the message is never complete; what follows the header section is body. -/
theorem eof_run {r : Response} (ok : r.UntilClose) {p data : Bytes} (hp : p <+: r.head ++ data) :
    ∃ v a o, run .continue_ 0 (View.empty, .live .start none) p = (v, .live a o) ∧ v.state ≠ .complete ∧
    (v.statusCode = 0 ∨ v.statusCode = r.code) ∧ (r.head <+: p → HeadSeen r v) ∧ (p ≠ [] → v.state ≠ .none) ∧
    v.headers <+: r.fields.map (fun f => (f.name, f.value, r.code)) ∧ v.body = p.drop r.head.length ∧ v.messages ≤ 1 := by
  have hi := (notes_spec r.fields ⟨minorOf r.version, r.code, none, false, false, false⟩).1 ⟨ok.noLength, .inl rfl⟩
  have hch : r.fields.any isChunked = false := by
    rw [List.any_eq_false]
    intro f hf h
    exact ok.notChunked f hf (of_decide_eq_true h)
  rw [hch] at hi
  simp only [Bool.or_false, Bool.false_or] at hi
  have hcl : (none : Option Nat).getD 0 = r.statedLength := by
    unfold Response.statedLength; rw [show r.lengths = [] from ok.noLength]; rfl
  obtain ⟨_, _, _, _, _, _, e4⟩ := head_run (hr := .continue_) ok.code.2 ok.reason ok.fields hi hcl (.inl rfl)
  have hnb : Info.noBody ⟨minorOf r.version, r.code, none, false, r.fields.any (isConn "close"), r.fields.any (isConn "keep-alive")⟩ = false :=
    decide_eq_false ok.body
  rw [if_neg (by decide)] at e4
  unfold afterHeaders at e4
  rw [hnb] at e4
  simp only [Bool.false_eq_true, if_false, absTree] at e4
  -- all of it
  have hall : ∀ d, ∃ v a o, run .continue_ 0 (View.empty, .live .start none) (r.head ++ d) = (v, .live a o) ∧ v.state = .incomplete ∧ v.messages = 1 ∧
      v.headers = r.fields.map (fun f => (f.name, f.value, r.code)) ∧ v.body = d := by
    intro d
    cases d with
    | nil =>
      rw [List.append_nil]
      exact ⟨_, _, _, e4, rfl, rfl, rfl, rfl⟩
    | cons c d =>
      have h1 := eof_body (hr := .continue_) d (0 + r.head.length + 1) (headView r (r.fields.any (isConn "close")) (r.fields.any (isConn "keep-alive"))) [c]
      have h2 : run .continue_ (0 + r.head.length) (headView r (r.fields.any (isConn "close")) (r.fields.any (isConn "keep-alive")), .live .eofStart none)
          (c :: d) = ((headView r (r.fields.any (isConn "close")) (r.fields.any (isConn "keep-alive"))).step (frag .body ([c] ++ d)),
            .live .eofIn (some .body)) := by
        rw [run_cons]
        simp only [step, absTree, frag_append]
        exact h1
      exact ⟨_, _, _, run_then e4 h2, rfl, rfl, rfl, rfl⟩
  obtain ⟨v, a, o, k1, k2, k3, k4, k5⟩ := hall data
  obtain ⟨q, hq⟩ := id hp
  rw [← hq] at k1
  obtain ⟨v1, a1, o1, l1, l2⟩ := live_before k1 (by omega) (by rw [k2]; simp)
  have hl := run_le (hr := .continue_) q (0 + p.length) (run .continue_ 0 (View.empty, .live .start none) p)
  have hm := run_messages (hr := .continue_) q (0 + p.length) (run .continue_ 0 (View.empty, .live .start none) p)
  rw [← run_append, k1] at hl hm
  obtain ⟨a1', a2, a3⟩ := seen_run (hr := .continue_) ok.code.2 ok.reason ok.fields hi hcl rfl rfl (.inl rfl) hp (by dsimp only at hm; omega)
  rw [l1] at hl hm a1' a2 a3
  refine ⟨v1, a1, o1, l1, l2, a1', a2, a3, by rw [← k4]; exact hl.headers, ?_, by dsimp only at hm; omega⟩
  rcases prefix_split hp with h | ⟨t, rfl, _⟩
  · rw [List.drop_of_length_le h.length_le]
    obtain ⟨v0, a0, o0, m1, _, _, _, m5⟩ := hall []
    obtain ⟨q0, hq0⟩ := h
    have hl0 := run_le (hr := .continue_) q0 (0 + p.length) (run .continue_ 0 (View.empty, .live .start none) p)
    rw [← run_append, hq0, ← List.append_nil r.head, m1, l1] at hl0
    have := hl0.body
    rw [m5] at this
    exact List.prefix_nil.mp this
  · rw [List.drop_left]
    obtain ⟨v0, a0, o0, m1, _, _, _, m5⟩ := hall t
    rw [l1] at m1
    cases m1
    exact m5

end CoreHttp.Ref

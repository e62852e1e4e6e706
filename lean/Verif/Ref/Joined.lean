import Verif.Ref.RoundTripPrefix
import Verif.Ref.Partial

/-!
# The reference parser on several responses in a row
-/

namespace CoreHttp.Ref
open Spec Machine
variable {hr : CbRet}

/-- What is known after `v` and then, from position `k` of the stream, `u`. -/
def join (k : Nat) (v u : View) : View where
  messages := v.messages + u.messages
  state := u.state
  statusCode := u.statusCode
  headers := v.headers ++ u.headers
  pending := u.pending
  body := v.body ++ u.body
  contentLength := u.contentLength.or v.contentLength
  connClose := v.connClose || u.connClose
  keepAlive := v.keepAlive || u.keepAlive
  headersEnd := (u.headersEnd.map (k + ·)).or v.headersEnd

theorem join_flush (k : Nat) (v u : View) : (join k v u).flush = join k v u.flush := by
  unfold View.flush
  cases h : u.pending with
  | none => simp [join, h]
  | some p =>
    obtain ⟨f, x⟩ := p
    cases x <;> simp [join, h]

theorem join_step (k : Nat) (v u : View) (o : PObs) : (join k v u).step { o with loc := k + o.loc } = join k v (u.step o) := by
  obtain ⟨ev, loc, data⟩ := o
  cases ev with
  | headerField off len =>
    simp only [View.step, join_flush]
    simp [join]
  | headersComplete a cl cc ka =>
    simp only [View.step, join_flush]
    simp [join, Bool.or_assoc]
  | _ => simp [View.step, join, Nat.add_assoc]

theorem join_step' (k : Nat) (v u : View) (o : PObs) (h : ∀ a cl cc ka, o.ev ≠ .headersComplete a cl cc ka) : (join k v u).step o = join k v (u.step o) := by
  rw [← join_step]
  obtain ⟨ev, loc, data⟩ := o
  cases ev <;> first | rfl | exact (h _ _ _ _ rfl).elim

theorem join_frag (k : Nat) (v u : View) (s : SpanK) (d : Bytes) : (join k v u).step (frag s d) = join k v (u.step (frag s d)) := by
  cases s <;> exact join_step' k v u _ (by intro _ _ _ _ h; cases h)

theorem absTree_join (k : Nat) (v : View) (n : Nat) (c : UInt8) (t : MTree A) : ∀ (u : View) (o : Option SpanK),
    absTree hr (k + n) c t (join k v u) o = (join k v (absTree hr n c t u o).1, (absTree hr n c t u o).2) := by
  induction t with
  | done a => intro u o; cases o <;> simp [absTree, join_frag]
  | fail e => intro u o; rfl
  | act e t ih =>
    intro u o
    cases e with
    | messageBegin => simp only [absTree, join_step' k v u ⟨.messageBegin, 0, []⟩ (by intro _ _ _ _ h; cases h), ih]
    | spanStart s => simp only [absTree, join_frag, ih]
    | spanEnd => simp only [absTree, ih]
    | spanEndIncl => cases o <;> simp only [absTree, join_frag, ih]
    | statusComplete code => simp only [absTree, join_step' k v u ⟨.statusComplete code, 0, []⟩ (by intro _ _ _ _ h; cases h), ih]
    | messageComplete => simp only [absTree, join_step' k v u ⟨.messageComplete, 0, []⟩ (by intro _ _ _ _ h; cases h), ih]
  | headers cl cc ka t1 t2 ih1 ih2 =>
    intro u o
    have h : (join k v u).step ⟨.headersComplete 0 cl cc ka, k + n + 1, []⟩ = join k v (u.step ⟨.headersComplete 0 cl cc ka, n + 1, []⟩) :=
      join_step k v u ⟨.headersComplete 0 cl cc ka, n + 1, []⟩
    cases hr <;> simp only [absTree, h, ih1, ih2]

/-- Running after `v`. -/
theorem run_join (k : Nat) (v : View) (cs : Bytes) : ∀ (n : Nat) (u : View) (s : St A),
    run hr (k + n) (join k v u, s) cs = (join k v (run hr n (u, s) cs).1, (run hr n (u, s) cs).2) := by
  induction cs with
  | nil => intro n u s; rfl
  | cons c cs ih =>
    intro n u s
    cases s with
    | dead e => exact ih (n + 1) u (.dead e)
    | live a o =>
      rw [run_cons, run_cons, absTree_join, Nat.add_assoc, ih]

/-- The status line of a further message. -/
theorem line_again {code : Nat} (ver : Version) (hc : code ≤ 999) (reason : Bytes) (h : ∀ c ∈ reason, c ≠ 13 ∧ c ≠ 10) (n k : Nat) (v : View) :
    run hr n (v, .live (.complete false) none) (ver.text ++ digits3 code ++ [32] ++ reason ++ crlf) =
      (join k v (lineView code), .live (.hdr ⟨minorOf ver, code, none, false, false, false⟩ false false) none) := by
  rw [List.append_assoc (_ ++ _)]
  refine run_then (y := ({ v with messages := v.messages + 1, state := .incomplete }, .live (.reasonStart (minorOf ver) code) none)) ?_ ?_
  · refine run_then (y := ({ v with messages := v.messages + 1, state := .incomplete }, .live (.code (minorOf ver) code 3) none)) ?_ ?_
    · refine run_then (y := ({ v with messages := v.messages + 1, state := .incomplete }, .live (.code (minorOf ver) 0 0) none))
        (by cases ver <;> rfl) ?_
      have d1 := digit_ok (k := code / 100) (by omega)
      have d2 := digit_ok (k := code / 10 % 10) (by omega)
      have d3 := digit_ok (k := code % 10) (by omega)
      unfold digits3
      rw [run_cons]
      simp only [step, show (0 : Nat) < 3 by decide, if_true, d1, absTree, run_cons, show (0 + 1 : Nat) < 3 by decide, d2,
        show (0 + 1 + 1 : Nat) < 3 by decide, d3, run_nil]
      rw [show 10 * (10 * (10 * 0 + code / 100) + code / 10 % 10) + code % 10 = code by omega]
    · rw [run_cons]
      simp [step, absTree, run_nil]
  · have hj : ({ v with messages := v.messages + 1, state := .incomplete, statusCode := code % 65536, pending := none } : View) =
        join k v (lineView code) := by simp [join, lineView, View.empty]
    rw [← hj]
    cases reason with
    | nil => rfl
    | cons c cs =>
      obtain ⟨h1, h2⟩ := h c List.mem_cons_self
      rw [List.cons_append, run_cons]
      simp only [step, if_neg h1, if_neg h2, absTree, frag_append]
      refine run_then (reason_run _ cs (fun c hc => h c (List.mem_cons_of_mem _ hc)) _ _) ?_
      rfl

/-- What is found in a response by itself. -/
def viewOf (r : Response) : View := finalView r (r.fields.any (isConn "close")) (r.fields.any (isConn "keep-alive"))

/-- A further response. -/
theorem response_again {head : Bool} {r : Response} (ok : r.Ok head) (k : Nat) (v : View) :
    run (answerTo head) k (v, .live (.complete false) none) r.bytes = (join k v (viewOf r), .live (.complete (closesB r)) none) := by
  obtain ⟨_, _, _, _, _, _, _, _, q⟩ := response_run ok
  have e : r.bytes = r.statusLine ++ (section_ r.fields ++ r.content.bytes) := by
    simp [Response.bytes, Response.head, Response.statusLine]
  rw [e] at q ⊢
  rw [run_append] at q ⊢
  have l0 : run (answerTo head) 0 (View.empty, .live .start none) r.statusLine = _ := line_run r.version ok.code.2 r.reason ok.reason 0
  have l1 : run (answerTo head) k (v, .live (.complete false) none) r.statusLine = _ := line_again r.version ok.code.2 r.reason ok.reason k k v
  rw [l0] at q
  rw [l1, run_join, ← Nat.zero_add r.statusLine.length, q]
  rfl

/-- What is found in further responses, after `v`, from position `k`. -/
def viewFrom : Nat → View → List Response → View
  | _, v, [] => v
  | k, v, r :: rs => viewFrom (k + r.bytes.length) (join k v (viewOf r)) rs

/-- The bytes of several responses. -/
def bytesOf (rs : List Response) : Bytes := rs.flatMap Response.bytes

/-- Further responses, all but the last on a connection that stays open. -/
theorem responses_again {head : Bool} (rs : List Response) : ∀ (k : Nat) (v : View) (cl : Bool), (∀ r ∈ rs, r.Ok head) →
    (rs ≠ [] → cl = false) → (∀ r ∈ rs.dropLast, ¬ r.closes) →
    ∃ cl', run (answerTo head) k (v, .live (.complete cl) none) (bytesOf rs) = (viewFrom k v rs, .live (.complete cl') none) ∧
      (rs = [] → cl' = cl) ∧ ∀ l, rs.getLast? = some l → cl' = closesB l := by
  induction rs with
  | nil => intro k v cl _ _ _; exact ⟨cl, rfl, fun _ => rfl, by simp⟩
  | cons r rs ih =>
    intro k v cl hok hcl hopen
    obtain rfl := hcl (by simp)
    have h1 := response_again (hok r (by simp)) k v
    obtain ⟨cl', h2, h3, h4⟩ := ih (k + r.bytes.length) (join k v (viewOf r)) (closesB r) (fun x hx => hok x (by simp [hx]))
      (fun hne => by
        rw [← Bool.not_eq_true, closesB_iff]
        refine hopen r ?_
        rw [List.dropLast_cons_of_ne_nil hne]
        exact List.mem_cons_self)
      (fun x hx => hopen x (by
        cases rs with
        | nil => simp at hx
        | cons y ys => rw [List.dropLast_cons_of_ne_nil (by simp)]; exact List.mem_cons_of_mem _ hx))
    refine ⟨cl', ?_, by simp, fun l hl => by
      cases rs with
      | nil =>
        simp only [List.getLast?_singleton, Option.some.injEq] at hl
        subst hl
        exact h3 rfl
      | cons y ys => exact h4 l (by simpa using hl)⟩
    rw [show bytesOf (r :: rs) = r.bytes ++ bytesOf rs by simp [bytesOf]]
    exact run_then h1 h2

/-- Several responses from the start of the stream. -/
theorem responses_run {head : Bool} (r : Response) (rs : List Response) (hok : ∀ x ∈ r :: rs, x.Ok head)
    (hopen : ∀ x ∈ (r :: rs).dropLast, ¬ x.closes) :
    ∃ cl, run (answerTo head) 0 (View.empty, .live .start none) (bytesOf (r :: rs)) =
      (viewFrom r.bytes.length (viewOf r) rs, .live (.complete cl) none) ∧ ∀ l, (r :: rs).getLast? = some l → cl = closesB l := by
  obtain ⟨_, _, _, _, _, _, _, _, q⟩ := response_run (hok r (by simp))
  obtain ⟨cl, h2, h3, h4⟩ := responses_again (head := head) rs (0 + r.bytes.length) (viewOf r) (closesB r) (fun x hx => hok x (by simp [hx]))
    (fun hne => by
      rw [← Bool.not_eq_true, closesB_iff]
      refine hopen r ?_
      rw [List.dropLast_cons_of_ne_nil hne]
      exact List.mem_cons_self)
    (fun x hx => hopen x (by
      cases rs with
      | nil => simp at hx
      | cons y ys => rw [List.dropLast_cons_of_ne_nil (by simp)]; exact List.mem_cons_of_mem _ hx))
  refine ⟨cl, ?_, fun l hl => by
    cases rs with
    | nil =>
      simp only [List.getLast?_singleton, Option.some.injEq] at hl
      subst hl
      exact h3 rfl
    | cons y ys => exact h4 l (by simpa using hl)⟩
  rw [show bytesOf (r :: rs) = r.bytes ++ bytesOf rs by simp [bytesOf]]
  rw [run_then q h2, Nat.zero_add]

/-- What that is. -/
theorem viewFrom_spec (rs : List Response) : ∀ (k : Nat) (v : View),
    (viewFrom k v rs).messages = v.messages + rs.length ∧
    (viewFrom k v rs).headers = v.headers ++ rs.flatMap (fun r => (r.fields ++ r.content.trailers.dropLast).map fun f => (f.name, f.value, r.code)) ∧
    (viewFrom k v rs).body = v.body ++ rs.flatMap (fun r => r.content.data) ∧
    (viewFrom k v rs).connClose = (v.connClose || rs.any fun r => r.fields.any (isConn "close")) ∧
    (viewFrom k v rs).keepAlive = (v.keepAlive || rs.any fun r => r.fields.any (isConn "keep-alive")) ∧
    (∀ l, rs.getLast? = some l → (viewFrom k v rs).statusCode = l.code ∧ (viewFrom k v rs).state = .complete ∧
      (viewFrom k v rs).contentLength = some (UInt64.ofNat l.statedLength)) := by
  induction rs with
  | nil => intro k v; simp [viewFrom]
  | cons r rs ih =>
    intro k v
    obtain ⟨h1, h2, h3, h4, h5, h6⟩ := ih (k + r.bytes.length) (join k v (viewOf r))
    unfold viewFrom
    refine ⟨?_, ?_, ?_, ?_, ?_, ?_⟩
    · rw [h1]; simp [join, viewOf, finalView]; omega
    · rw [h2]; simp [join, viewOf, finalView, List.map_dropLast]
    · rw [h3]; simp [join, viewOf, finalView]
    · rw [h4]; simp [join, viewOf, finalView, Bool.or_assoc]
    · rw [h5]; simp [join, viewOf, finalView, Bool.or_assoc]
    · intro l hl
      cases rs with
      | nil =>
        simp only [List.getLast?_singleton, Option.some.injEq] at hl
        subst hl
        simp [viewFrom, join, viewOf, finalView]
      | cons y ys => exact h6 l (by simpa using hl)

theorem flush_state (v : View) : v.flush.state = v.state := by
  unfold View.flush
  split <;> rfl

theorem step_state {v u : View} (h : v.state = u.state) (o o' : PObs) (ho : o.ev = o'.ev) : (v.step o).state = (u.step o').state := by
  obtain ⟨ev, loc, data⟩ := o
  obtain ⟨ev', loc', data'⟩ := o'
  simp only at ho
  subst ho
  cases ev <;> simp [View.step, flush_state, h]

theorem absTree_state (n n' : Nat) (c : UInt8) (t : MTree A) : ∀ (v u : View) (o : Option SpanK), v.state = u.state →
    (absTree hr n c t v o).1.state = (absTree hr n' c t u o).1.state ∧ (absTree hr n c t v o).2 = (absTree hr n' c t u o).2 := by
  induction t with
  | done a =>
    intro v u o h
    cases o with
    | none => exact ⟨h, rfl⟩
    | some k => exact ⟨step_state h _ _ rfl, rfl⟩
  | fail e => intro v u o h; exact ⟨h, rfl⟩
  | act e t ih =>
    intro v u o h
    cases e with
    | messageBegin => exact ih _ _ _ (step_state h _ _ rfl)
    | spanStart s => exact ih _ _ _ (step_state h _ _ rfl)
    | spanEnd => exact ih _ _ _ h
    | spanEndIncl => cases o with
      | none => exact ih _ _ _ h
      | some k => exact ih _ _ _ (step_state h _ _ rfl)
    | statusComplete code => exact ih _ _ _ (step_state h _ _ rfl)
    | messageComplete => exact ih _ _ _ (step_state h _ _ rfl)
  | headers cl cc ka t1 t2 ih1 ih2 =>
    intro v u o h
    have h' := step_state h ⟨.headersComplete 0 cl cc ka, n + 1, []⟩ ⟨.headersComplete 0 cl cc ka, n' + 1, []⟩ rfl
    cases hr with
    | pause => exact ⟨h', rfl⟩
    | user => exact ⟨h', rfl⟩
    | noBody => exact ih2 _ _ _ h'
    | continue_ => exact ih1 _ _ _ h'

/-- Whether a message has begun or is complete, and where the parser is, does not depend on what has been found. -/
theorem run_state (cs : Bytes) : ∀ (n n' : Nat) (v u : View) (s : St A), v.state = u.state →
    (run hr n (v, s) cs).1.state = (run hr n' (u, s) cs).1.state ∧ (run hr n (v, s) cs).2 = (run hr n' (u, s) cs).2 := by
  induction cs with
  | nil => intro n n' v u s h; exact ⟨h, rfl⟩
  | cons c cs ih =>
    intro n n' v u s h
    cases s with
    | dead e => exact ih (n + 1) (n' + 1) v u (.dead e) h
    | live a o =>
      rw [run_cons, run_cons]
      obtain ⟨h1, h2⟩ := absTree_state (hr := hr) n n' c (step a c) v u o h
      have := ih (n + 1) (n' + 1) (absTree hr n c (step a c) v o).1 (absTree hr n' c (step a c) u o).1 (absTree hr n c (step a c) v o).2 h1
      refine ⟨this.1.trans ?_, this.2.trans ?_⟩ <;> rw [h2]

/-- A beginning of a further response: the message is begun, and not complete. -/
theorem begun_again {head : Bool} {r : Response} (ok : r.Ok head) {p : Bytes} (hp : p <+: r.bytes) (hne : p ≠ []) (hlt : p ≠ r.bytes) (k : Nat) (v : View) :
    ∃ v' a o, run (answerTo head) k (v, .live (.complete false) none) p = (v', .live a o) ∧ v'.state = .incomplete := by
  obtain ⟨v1, a, o, e1, h1⟩ := prefix_run ok hp hlt
  have hs := (part_run ok hp).2.2.1 hne
  rw [e1] at hs
  cases p with
  | nil => exact absurd rfl hne
  | cons c p =>
    have h72 : c = 72 := by
      obtain ⟨t, ht⟩ := hp
      have : r.bytes = r.version.text ++ (digits3 r.code ++ [32] ++ r.reason ++ crlf ++ section_ r.fields ++ r.content.bytes) := by
        simp [Response.bytes, Response.head]
      rw [this] at ht
      cases hv : r.version <;> rw [hv] at ht <;> exact (List.cons.inj ht).1
    subst h72
    rw [run_cons] at e1 ⊢
    have := run_state (hr := answerTo head) p (k + 1) 1 (v.step ⟨.messageBegin, 0, []⟩) (View.empty.step ⟨.messageBegin, 0, []⟩)
      (.live (.proto (ascii "TTP/1.")) none) rfl
    have e1 : run (answerTo head) 1 (View.empty.step ⟨.messageBegin, 0, []⟩, .live (.proto (ascii "TTP/1.")) none) p = (v1, .live a o) := e1
    rw [e1] at this
    refine ⟨(run (answerTo head) (k + 1) (v.step ⟨.messageBegin, 0, []⟩, .live (.proto (ascii "TTP/1.")) none) p).1, a, o, ?_, ?_⟩
    · exact Prod.ext rfl this.2
    · rw [this.1]
      cases hx : v1.state with
      | none => exact absurd hx hs
      | incomplete => rfl
      | complete => exact absurd hx h1

end CoreHttp.Ref

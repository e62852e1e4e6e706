import Verif.Ref.Lookup

/-! # The header section of a well-formed response, read by the reference parser when it is told to pause at its end -/

namespace CoreHttp.Ref
open Spec Machine

variable {hr : CbRet}

theorem step_cl (v : View) (o : PObs) (h : v.contentLength.isSome) : (v.step o).contentLength.isSome := by
  have hf : v.flush.contentLength = v.contentLength := by unfold View.flush; split <;> rfl
  unfold View.step
  cases o.ev <;> simp [hf, h]

theorem absTree_cl (t : MTree A) : ∀ (n : Nat) (c : UInt8) (v : View) (o : Option SpanK), v.contentLength.isSome → (absTree hr n c t v o).1.contentLength.isSome := by
  induction t with
  | done a =>
    intro n c v o h
    cases o with
    | none => exact h
    | some k => exact step_cl _ _ h
  | fail e => intro n c v o h; exact h
  | act e t ih =>
    intro n c v o h
    cases e with
    | messageBegin => exact ih _ _ _ _ (step_cl _ _ h)
    | spanStart k => exact ih _ _ _ _ (step_cl _ _ h)
    | spanEnd => exact ih _ _ _ _ h
    | spanEndIncl =>
      cases o with
      | none => exact ih _ _ _ _ h
      | some k => exact ih _ _ _ _ (step_cl _ _ h)
    | statusComplete code => exact ih _ _ _ _ (step_cl _ _ h)
    | messageComplete => exact ih _ _ _ _ (step_cl _ _ h)
  | headers cl cc ka t1 t2 ih1 ih2 =>
    intro n c v o h
    cases hr with
    | continue_ => exact ih1 _ _ _ _ (step_cl _ _ h)
    | noBody => exact ih2 _ _ _ _ (step_cl _ _ h)
    | pause => exact step_cl _ _ h
    | user => exact step_cl _ _ h

theorem run_cl (cs : Bytes) : ∀ (n : Nat) (x : View × St A), x.1.contentLength.isSome → (run hr n x cs).1.contentLength.isSome := by
  induction cs with
  | nil => intro n x h; exact h
  | cons c cs ih =>
    intro n x h
    obtain ⟨v, a | e⟩ := x
    · rw [run_cons]; exact ih _ _ (absTree_cl _ _ _ _ _ h)
    · rw [run_dead]; exact h

theorem fold_cl (fs : List Field) : ∀ v : View, (fs.foldl addField v).contentLength = v.contentLength := by
  induction fs with
  | nil => intro v; rfl
  | cons f fs ih => intro v; rw [List.foldl_cons, ih]; unfold addField View.flush; split <;> rfl

/-- Paused exactly at the end of the header section. -/
theorem head_pause {head : Bool} {r : Response} (ok : r.Ok head) :
    (∃ w v a, r.head = w ++ [10] ∧ run .pause 0 (View.empty, .live .start none) w = (v, .live a none) ∧ v.contentLength = none) ∧
    run .pause 0 (View.empty, .live .start none) r.head =
      (headView r (r.fields.any (isConn "close")) (r.fields.any (isConn "keep-alive")), .dead .paused) := by
  obtain ⟨i, hi, hcl, hic, hik⟩ := notes_ok ok
  have e : r.head = ((r.version.text ++ digits3 r.code ++ [32] ++ r.reason ++ crlf) ++ ((r.fields.map Field.line).flatten ++ [13])) ++ [10] := by
    simp [Response.head, section_, crlf]
  have hpn : (lineView r.code).flush.pending = none := rfl
  obtain ⟨hf1, hf2⟩ := fold_flush r.fields (lineView r.code) hpn
  have hm : r.code % 65536 = r.code := Nat.mod_eq_of_lt (by have := ok.code.2; omega)
  have h1 : run .pause 0 (View.empty, .live .start none) ((r.version.text ++ digits3 r.code ++ [32] ++ r.reason ++ crlf) ++
      ((r.fields.map Field.line).flatten ++ [13])) =
      (r.fields.foldl addField (lineView r.code), .live (.endLF i false (false || !r.fields.isEmpty)) none) :=
    run_then (line_run _ ok.code.2 _ ok.reason 0) (run_then (fields_run r.fields ok.fields _ _ _ i _ hpn (by simpa using hi)) rfl)
  refine ⟨⟨_, _, _, e, h1, by rw [fold_cl]; rfl⟩, ?_⟩
  generalize (r.version.text ++ digits3 r.code ++ [32] ++ r.reason ++ crlf) ++ ((r.fields.map Field.line).flatten ++ [13]) = W at e h1
  have hl : r.head.length = 0 + W.length + 1 := by rw [e]; simp
  rw [show run .pause 0 (View.empty, .live .start none) r.head = run .pause 0 (View.empty, .live .start none) (W ++ [10]) by rw [e]]
  refine run_then h1 ?_
  rw [run_cons]
  simp only [step, if_true, Bool.false_eq_true, if_false]
  generalize hb : r.fields.foldl addField (lineView r.code) = u at hf1 hf2
  have hv : u.step ⟨.headersComplete 0 (UInt64.ofNat (i.cl.getD 0)) i.close i.keepAlive, 0 + W.length + 1, []⟩ =
      headView r i.close i.keepAlive := by
    rw [← hl]
    have h1 : u.connClose = u.flush.connClose ∧ u.keepAlive = u.flush.keepAlive := by unfold View.flush; split <;> exact ⟨rfl, rfl⟩
    simp only [View.step, hcl, h1, hf1]
    simp [headView, lineView, View.empty, View.flush, hm]
  rw [hic, hik] at hv
  simp only [absTree, run_nil, hic, hik, hv]

/-- What follows the header section is not looked at. -/
theorem pause_run {head : Bool} {r : Response} (ok : r.Ok head) (rest : Bytes) :
    run .pause 0 (View.empty, .live .start none) (r.head ++ rest) =
      (headView r (r.fields.any (isConn "close")) (r.fields.any (isConn "keep-alive")), .dead .paused) :=
  run_then (head_pause ok).2 (run_dead _ _ _ _)

/-- Before its end the parser is not paused. -/
theorem pause_prefix {head : Bool} {r : Response} (ok : r.Ok head) {p : Bytes} (hp : p <+: r.head) (hne : p ≠ r.head) :
    ∃ v a o, run .pause 0 (View.empty, .live .start none) p = (v, .live a o) ∧ v.contentLength = none := by
  obtain ⟨⟨w, v, a, h1, h2, h3⟩, _⟩ := head_pause ok
  have hpw : p <+: w := by
    rw [h1] at hp hne
    rcases List.prefix_concat_iff.mp hp with h | h
    · exact absurd h hne
    · exact h
  obtain ⟨q, rfl⟩ := hpw
  have hr : ∀ x : View × St A, run .pause 0 (View.empty, .live .start none) p = x → run .pause (0 + p.length) x q = (v, .live a none) := by
    intro x hx
    rw [← hx]
    have : run .pause 0 (View.empty, .live .start none) (p ++ q) = _ := absRun_append http .pause 0 _ p q
    rw [← h2, this]; rfl
  rcases hx : run .pause 0 (View.empty, .live .start none) p with ⟨v', a' | e⟩
  · rename_i o'
    refine ⟨v', a', o', rfl, ?_⟩
    have := run_cl (hr := .pause) q (0 + p.length) (v', .live a' o')
    rw [hr _ hx, h3] at this
    cases hc : v'.contentLength with
    | none => rfl
    | some x => exact absurd (this (by rw [hc]; rfl)) (by simp)
  · have := hr _ hx
    rw [run_dead] at this
    cases this

/-- Told to pause at the end of the header section, the parser reads the header section of every well-formed response, however it is cut into pieces
and whatever follows it. -/
structure HeadReader (P : Parser) : Prop where
  all_ : ∀ {head : Bool} {r : Response} (ds : List Bytes), r.Ok head → r.head <+: ds.flatten →
    view (feedAll P (answers .pause) ds).1 = headView r (r.fields.any (isConn "close")) (r.fields.any (isConn "keep-alive")) ∧
    (feedAll P (answers .pause) ds).2.2.2 = .paused
  part : ∀ {head : Bool} {r : Response} (ds : List Bytes), r.Ok head → ds.flatten <+: r.head → ds.flatten ≠ r.head →
    (view (feedAll P (answers .pause) ds).1).contentLength = none ∧ (feedAll P (answers .pause) ds).2.2.2 = .ok

/-- The reference parser does. -/
theorem http_headReader : HeadReader httpParser := by
  have hrun : ∀ p, absRun http .pause 0 (View.empty, .live http.init none) p = run .pause 0 (View.empty, .live .start none) p := fun _ => rfl
  constructor
  · intro head r ds ok h
    have hfv := feed_view http_machine_ok .pause ds
    obtain ⟨q, hq⟩ := h
    rw [hrun, ← hq, pause_run ok] at hfv
    rcases hfv with ⟨v, a, o, g1, _⟩ | ⟨v, er', g1, _, g2, g3⟩
    · cases g1
    · cases g1
      exact ⟨g2 (.inl rfl), congrArg Prod.snd g3⟩
  · intro head r ds ok h hne
    have hfv := feed_view http_machine_ok .pause ds
    obtain ⟨v, a, o, q1, q2⟩ := pause_prefix ok h hne
    rw [hrun, q1] at hfv
    rcases hfv with ⟨v', a', o', g1, _, _, g2, g3⟩ | ⟨v', er', g1, _⟩
    · cases g1
      exact ⟨(congrArg View.contentLength g2).trans q2, congrArg Prod.snd g3⟩
    · cases g1

end CoreHttp.Ref

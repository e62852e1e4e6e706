import Verif.Ref.RoundTrip
import Verif.Ref.RoundTripPrefix
import Verif.Lemmas.ReadHeaderTop

/-! # A header section in front of arbitrary bytes, read by the reference parser -/

namespace CoreHttp.Machine
open Spec

/-- Reading `w1` and then `w2` in one piece, when no span is open in between. -/
theorem run_through {M : Machine} {phase : M.A → Phase} {opened : M.A → Option SpanK} (hM : Ok strict M phase opened) {hr : CbRet} {base : Nat} {data w2 : Bytes}
    {v1 : View} {a1 : M.A} (w1 : Bytes) : ∀ (p : Nat) (a : M.A) (o : Option (SpanK × Nat)) (v0 v : View), p ≤ data.length → data.drop p = w1 ++ w2 →
      opened a = o.map Prod.fst → Rel data p v0 o v →
      absRun M hr (base + p) (v, .live a (o.map Prod.fst)) w1 = (v1, .live a1 none) →
      sem (answers hr) base data (M.run p (w1 ++ w2) a o) v0 = sem (answers hr) base data (M.run (p + w1.length) w2 a1 none) v1 := by
  induction w1 with
  | nil =>
    intro p a o v0 v hp hrest ho hrel h
    simp only [absRun, Prod.mk.injEq, St.live.injEq] at h
    obtain ⟨rfl, rfl, h⟩ := h
    cases o with
    | none =>
      obtain rfl : v0 = v := hrel
      rfl
    | some ks => cases h
  | cons c cs ih =>
    intro p a o v0 v hp hrest ho hrel h
    have hc : data[p]? = some c := by
      have : (data.drop p)[0]? = some c := by rw [hrest]; rfl
      simpa using this
    have hlt : p < data.length := by
      rcases Nat.lt_or_ge p data.length with h | h
      · exact h
      · rw [List.getElem?_eq_none h] at hc; cases hc
    have hst := hM.step a c
    rw [ho] at hst
    have h' : absRun M hr (base + (p + 1)) (absTree hr (base + p) c (M.step a c) v (o.map Prod.fst)) cs = (v1, .live a1 none) := h
    rcases byteTree_view (hr := hr) (base := base) (k := fun a o => M.run (p + 1) (cs ++ w2) a o) hc (M.step a c) _ o _ _ v0 v hst hrel with
      ⟨v', a', o', v0', e1, e2, e3, e4⟩ | ⟨v', e, v0', e1, e2, e3, e4⟩
    · rw [e1] at h'
      have hd : data.drop (p + 1) = cs ++ w2 := by
        have := congrArg (List.drop 1) hrest
        simpa [List.drop_drop] using this
      have := ih (p + 1) a' o' v0' v' (by omega) hd e2 e3 h'
      simp only [List.cons_append, run, e4, this, List.length_cons]
      rw [show p + 1 + cs.length = p + (cs.length + 1) by omega]
    · rw [e1, absRun_dead] at h'
      simp at h'

end CoreHttp.Machine

namespace CoreHttp.Ref
open Spec Machine

theorem step_headers (v : View) (o : PObs) : v.headers <+: (v.step o).headers := by
  unfold View.step
  have hf : v.headers <+: v.flush.headers := by unfold View.flush; split <;> simp
  split <;> first | exact List.prefix_refl _ | exact hf

theorem fold_headers (os : List PObs) : ∀ v : View, v.headers <+: (os.foldl View.step v).headers := by
  induction os with
  | nil => intro v; exact List.prefix_refl _
  | cons o os ih => intro v; exact (step_headers v o).trans (ih _)

/-- What the parser notes of the header section of a well-formed response. -/
theorem notes_ok {head : Bool} {r : Response} (ok : r.Ok head) :
    ∃ i, notes ⟨minorOf r.version, r.code, none, false, false, false⟩ r.fields = .ok i ∧ i.cl.getD 0 = r.statedLength ∧
      i.close = r.fields.any (isConn "close") ∧ i.keepAlive = r.fields.any (isConn "keep-alive") := by
  have h0 : r.lengths = [] → ∃ i, notes ⟨minorOf r.version, r.code, none, false, false, false⟩ r.fields = .ok i ∧ i.cl.getD 0 = r.statedLength ∧
      i.close = r.fields.any (isConn "close") ∧ i.keepAlive = r.fields.any (isConn "keep-alive") := by
    intro h
    refine ⟨_, (notes_spec r.fields ⟨minorOf r.version, r.code, none, false, false, false⟩).1 ⟨h, .inl rfl⟩, ?_, by simp, by simp⟩
    unfold Response.statedLength; rw [h]; rfl
  have h1 : ∀ n, r.SaysLength n → ∃ i, notes ⟨minorOf r.version, r.code, none, false, false, false⟩ r.fields = .ok i ∧ i.cl.getD 0 = r.statedLength ∧
      i.close = r.fields.any (isConn "close") ∧ i.keepAlive = r.fields.any (isConn "keep-alive") := by
    rintro n ⟨⟨f, h1, h2⟩, h3, h4⟩
    refine ⟨_, (notes_spec r.fields ⟨minorOf r.version, r.code, none, false, false, false⟩).2 f n h1 h2 h3 h4 rfl rfl, ?_, by simp, by simp⟩
    unfold Response.statedLength; rw [h1]; simp [h2]
  have hok := ok.content
  rcases hc : r.content with _ | d | ⟨cs, ls, le, ts⟩ <;> rw [hc] at hok <;> dsimp only at hok
  · exact hok.2.elim h0 fun ⟨n, h⟩ => h1 n h
  · exact h1 _ hok.2
  · exact h0 hok.2.1

/-- Any data that begins with the header section of a well-formed response, read with the answer "no body". -/
theorem readAll_head {head : Bool} {r : Response} (ok : r.Ok head) (rest : Bytes) :
    ∃ v cl, v.headers = (r.fields.map fun f => (f.name, f.value, r.code)) ∧ v.pending = none ∧
      (view (readAll httpParser (r.head ++ rest)).1, (readAll httpParser (r.head ++ rest)).2) =
        ((sem (answers .noBody) 0 (r.head ++ rest) (http.run r.head.length rest (.complete cl) none) v).1,
         (sem (answers .noBody) 0 (r.head ++ rest) (http.run r.head.length rest (.complete cl) none) v).2.1) := by
  obtain ⟨i, hi, hcl, _, _⟩ := notes_ok ok
  obtain ⟨_, _, _, _, _, _, h⟩ := head_run (hr := .noBody) ok.code.2 ok.reason ok.fields hi hcl (.inr rfl)
  rw [if_pos rfl] at h
  simp only [finish, absTree] at h
  have := run_through (data := r.head ++ rest) (base := 0) (w2 := rest) http_machine_ok r.head 0 .start none View.empty View.empty (Nat.zero_le _) rfl rfl rfl h
  simp only [Nat.zero_add] at this
  generalize hv : (headView r i.close i.keepAlive).step ⟨.messageComplete, 0, []⟩ = v at this
  refine ⟨v, i.closes, by rw [← hv]; rfl, by rw [← hv]; rfl, ?_⟩
  rw [← this]
  rfl

/-- Its fields are the first headers the reference parser reports. -/
theorem lookup_head {head : Bool} {r : Response} (ok : r.Ok head) (rest : Bytes) :
    (r.fields.map fun f => (f.name, f.value, r.code)) <+: allHeaders (readAll httpParser (r.head ++ rest)).1 := by
  obtain ⟨v, cl, h1, _, h2⟩ := readAll_head ok rest
  have h3 := (Prod.mk.inj h2).1
  unfold allHeaders
  have hf : ∀ u : View, u.headers <+: u.flush.headers := by intro u; unfold View.flush; split <;> simp
  rw [h3, ← h1]
  exact (fold_headers _ v).trans (hf _)

end CoreHttp.Ref

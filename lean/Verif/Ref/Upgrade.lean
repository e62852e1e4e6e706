import Verif.Ref.HeadersOnly
import Verif.Ref.RoundTripPrefix

/-!
# The reference parser with protocol switching

As `http` (Verif/Ref/Http.lean), but as llhttp does, it stops after a response with status 101 (Switching Protocols): the message is complete, and
`llhttp_execute` returns HPE_PAUSED_UPGRADE, leaving what follows the header section unread.
-/

namespace CoreHttp.Ref
open Spec Machine

/-- The message ends, and with it the protocol. -/
def switch : MTree A := .act .messageComplete (.fail .pausedUpgrade)

/-- Read one byte: as `step`, but stop at the end of the header section of a 101 response. -/
def stepU : A → UInt8 → MTree A
  | .endLF i false any, c =>
    if c = 10 ∧ i.code = 101 then .headers (UInt64.ofNat (i.cl.getD 0)) i.close i.keepAlive switch switch else step (.endLF i false any) c
  | a, c => step a c

/-- The machine. -/
def httpUp : Machine := ⟨A, .start, stepU⟩

/-- The parser. -/
def upParser : Parser := httpUp.toParser

theorem stepU_eq {a : A} {c : UInt8} (h : ∀ i any, a = .endLF i false any → c = 10 → i.code ≠ 101) : stepU a c = step a c := by
  cases a with
  | endLF i tr any =>
    cases tr with
    | true => rfl
    | false => exact if_neg fun h' => h i any rfl h'.1 h'.2
  | _ => rfl

/-- It honours the parser contract. -/
theorem httpUp_ok : Machine.Ok true httpUp A.phase A.opened := by
  refine ⟨http_machine_ok.init, http_machine_ok.live, http_machine_ok.start, ?_⟩
  intro a c
  show Machine.ActOk true A.phase A.opened (stepU a c) a.phase a.opened false false
  by_cases h : ∃ i any, a = .endLF i false any ∧ c = 10 ∧ i.code = 101
  · obtain ⟨i, any, rfl, rfl, h⟩ := h
    rw [show stepU (.endLF i false any) 10 = .headers (UInt64.ofNat (i.cl.getD 0)) i.close i.keepAlive switch switch from if_pos ⟨rfl, h⟩]
    exact ⟨rfl, rfl, by cases any <;> simp [A.phase], ⟨rfl, by simp, by simp, by decide⟩, ⟨rfl, by simp, by simp, by decide⟩⟩
  · rw [stepU_eq fun i any h1 h2 h3 => h ⟨i, any, h1, h2, h3⟩]
    exact http_machine_ok.step a c

/-- It honours the parser contract. -/
theorem upParser_ok : ParserOk true upParser := Machine.toParser_ok httpUp_ok

variable {hr : CbRet}

/-- What this parser reports of a byte stream, whatever the cuts. -/
def runU (hr : CbRet) (n : Nat) (x : View × St A) (cs : Bytes) : View × St A := absRun httpUp hr n x cs

theorem runU_append (n : Nat) (x : View × St A) (cs ds : Bytes) : runU hr n x (cs ++ ds) = runU hr (n + cs.length) (runU hr n x cs) ds :=
  absRun_append httpUp hr n x cs ds

/-- As long as no header section ends, it reads what the reference parser reads. -/
theorem up_agrees (cs : Bytes) : ∀ (n : Nat) (x : View × St A), (run hr n x cs).1.contentLength = none → runU hr n x cs = run hr n x cs := by
  induction cs with
  | nil => intro n x _; rfl
  | cons c cs ih =>
    intro n x h
    obtain ⟨v, s⟩ := x
    cases s with
    | dead e => rw [run_dead]; exact absRun_dead httpUp hr n v e _
    | live a o =>
      have hs : stepU a c = step a c := by
        refine stepU_eq ?_
        rintro i any rfl rfl _
        rw [run_cons] at h
        have := run_cl (hr := hr) cs (n + 1) (absTree hr n 10 (step (.endLF i false any) 10) v o) ?_
        · rw [h] at this; cases this
        · have hst : step (.endLF i false any) 10 = .headers (UInt64.ofNat (i.cl.getD 0)) i.close i.keepAlive (afterHeaders i) (finish i) := rfl
          rw [hst]
          cases hr with
          | continue_ => exact absTree_cl (afterHeaders i) _ _ _ _ rfl
          | noBody => exact absTree_cl (finish i) _ _ _ _ rfl
          | pause => rfl
          | user => rfl
      show absRun httpUp hr (n + 1) (absTree hr n c (stepU a c) v o) cs = run hr (n + 1) (absTree hr n c (step a c) v o) cs
      rw [hs]
      exact ih _ _ h

theorem notes_code (fs : List Field) : ∀ (i : Info) {i' : Info}, notes i fs = .ok i' → i'.code = i.code := by
  induction fs with
  | nil => intro i i' h; cases h; rfl
  | cons f fs ih =>
    intro i i' h
    unfold notes at h
    split at h
    · rename_i j hj
      rw [ih _ h]
      revert hj
      unfold Info.note
      (repeat' split) <;> intro hj <;> cases hj <;> rfl
    · cases h

/-- Before the last byte of the header section of a response. -/
theorem head_lf {head : Bool} {r : Response} (ok : r.Ok head) :
    ∃ w i any, r.head = w ++ [10] ∧ run hr 0 (View.empty, .live .start none) w = (preView r, .live (.endLF i false any) none) ∧
      i.code = r.code ∧ i.cl.getD 0 = r.statedLength ∧ i.close = r.fields.any (isConn "close") ∧ i.keepAlive = r.fields.any (isConn "keep-alive") := by
  obtain ⟨i, hi, hcl, hic, hik⟩ := notes_ok ok
  have e : r.head = ((r.version.text ++ digits3 r.code ++ [32] ++ r.reason ++ crlf) ++ ((r.fields.map Field.line).flatten ++ [13])) ++ [10] := by
    simp [Response.head, section_, crlf]
  have hpn : (lineView r.code).flush.pending = none := rfl
  have h1 : run hr 0 (View.empty, .live .start none) ((r.version.text ++ digits3 r.code ++ [32] ++ r.reason ++ crlf) ++
      ((r.fields.map Field.line).flatten ++ [13])) =
      (r.fields.foldl addField (lineView r.code), .live (.endLF i false (false || !r.fields.isEmpty)) none) :=
    run_then (line_run _ ok.code.2 _ ok.reason 0) (run_then (fields_run r.fields ok.fields _ _ _ i _ hpn (by simpa using hi)) rfl)
  refine ⟨_, i, _, e, h1, ?_, hcl, hic, hik⟩
  exact notes_code r.fields _ hi

/-- **A 101 response, read by this parser**: complete at the end of its header section; what follows is not read. -/
theorem up_run {head : Bool} {r : Response} (ok : r.Ok head) (h101 : r.code = 101) (hc : r.content = .none) (rest : Bytes) :
    runU (answerTo head) 0 (View.empty, .live .start none) (r.head ++ rest) =
      (finalView r (r.fields.any (isConn "close")) (r.fields.any (isConn "keep-alive")), .dead .pausedUpgrade) := by
  obtain ⟨W, i, any, e, h1, h2, hcl, hic, hik⟩ := head_lf (hr := answerTo head) ok
  have hpn : (lineView r.code).flush.pending = none := rfl
  obtain ⟨hf1, hf2⟩ := fold_flush r.fields (lineView r.code) hpn
  have hm : r.code % 65536 = r.code := Nat.mod_eq_of_lt (by have := ok.code.2; omega)
  have hl : r.head.length = 0 + W.length + 1 := by rw [e]; simp
  have hW : runU (answerTo head) 0 (View.empty, .live .start none) W = (preView r, .live (.endLF i false any) none) := by
    rw [up_agrees W 0 _ (by rw [h1]; unfold preView; rw [fold_cl]; rfl), h1]
  rw [show r.head ++ rest = W ++ (10 :: rest) by rw [e]; simp]
  rw [runU_append, hW]
  show runU (answerTo head) (0 + W.length + 1) (absTree (answerTo head) (0 + W.length) 10 (stepU (.endLF i false any) 10) (preView r) none) rest = _
  rw [show stepU (.endLF i false any) 10 = .headers (UInt64.ofNat (i.cl.getD 0)) i.close i.keepAlive switch switch from if_pos ⟨rfl, h2.trans h101⟩]
  have hv : (preView r).step ⟨.headersComplete 0 (UInt64.ofNat (i.cl.getD 0)) i.close i.keepAlive, 0 + W.length + 1, []⟩ =
      headView r i.close i.keepAlive := by
    rw [← hl]
    generalize hb : preView r = u
    rw [show r.fields.foldl addField (lineView r.code) = u from hb] at hf1 hf2
    have h1 : u.connClose = u.flush.connClose ∧ u.keepAlive = u.flush.keepAlive := by unfold View.flush; split <;> exact ⟨rfl, rfl⟩
    simp only [View.step, hcl, h1, hf1]
    simp [headView, lineView, View.empty, View.flush, hm]
  rw [hic, hik] at hv
  have hfin : absTree (answerTo head) (0 + W.length) 10 (.headers (UInt64.ofNat (i.cl.getD 0)) i.close i.keepAlive switch switch) (preView r) none =
      (finalView r (r.fields.any (isConn "close")) (r.fields.any (isConn "keep-alive")), .dead .pausedUpgrade) := by
    cases head <;> simp only [answerTo, if_true, Bool.false_eq_true, if_false, absTree, hic, hik, hv, switch] <;>
      simp [View.step, headView, finalView, hc, Content.trailers, Content.data]
  rw [hfin]
  exact absRun_dead httpUp _ _ _ _ _

/-- Before its end it is not complete. -/
theorem up_prefix {head : Bool} {r : Response} (ok : r.Ok head) (hc : r.content = .none) {p : Bytes} (hp : p <+: r.head) (hne : p ≠ r.head) :
    ∃ v a o, runU (answerTo head) 0 (View.empty, .live .start none) p = (v, .live a o) ∧ v.state ≠ .complete := by
  have hb : r.bytes = r.head := by simp [Response.bytes, hc, Content.bytes]
  obtain ⟨v, a, o, h2, h3⟩ := prefix_run ok (p := p) (by rw [hb]; exact hp) (by rw [hb]; exact hne)
  obtain ⟨W, i, any, e, h1, _⟩ := head_lf (hr := answerTo head) ok
  have hpw : p <+: W := by
    rw [e] at hp hne
    rcases List.prefix_concat_iff.mp hp with h | h
    · exact absurd h hne
    · exact h
  obtain ⟨q, rfl⟩ := hpw
  have hx := run_append (hr := answerTo head) 0 (View.empty, .live .start none) p q
  rw [h1, h2] at hx
  have hcl : v.contentLength = none := by
    have := run_cl (hr := answerTo head) q (0 + p.length) (v, .live a o)
    rw [← hx] at this
    cases hcl : v.contentLength with
    | none => rfl
    | some x =>
      have := this (by simp [hcl])
      unfold preView at this
      rw [fold_cl] at this
      cases this
  exact ⟨v, a, o, by rw [up_agrees p 0 _ (by rw [h2]; exact hcl), h2], h3⟩

end CoreHttp.Ref

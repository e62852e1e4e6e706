import Verif.Props.Incomplete
import Verif.Props.ReceiveEx

/-! # C82: what HTTPNoResponse says

core_http_client.h:235–245: "No HTTP response was received from the network. This can occur only if there was no data received from the transport interface." -/

namespace CoreHttp.Props
open CoreHttp Spec Ref Machine
variable {σ : Type} {cfg : Cfg} {T : Transport σ} {recv : σ → Nat → Int × Bytes × σ} {rh : ReqHeaders} {rb b : Nat} {resp : Resp σ}

/-- Bytes of blank lines: CR and LF only. -/
def OnlyLineEnds (d : Bytes) : Prop := ∀ c ∈ d, c = 13 ∨ c = 10

theorem run_lineEnds {hr : CbRet} (d : Bytes) : ∀ (n : Nat) (v : View), OnlyLineEnds d → run hr n (v, .live .start none) d = (v, .live .start none) := by
  induction d with
  | nil => intro n v _; rfl
  | cons c cs ih =>
    intro n v h
    rw [run_cons]
    have hs : step .start c = .done .start := by
      show (if c = 13 ∨ c = 10 then _ else _) = _
      rw [if_pos (h c (by simp))]
    rw [hs]
    exact ih _ _ fun x hx => h x (by simp [hx])

theorem run_begins {hr : CbRet} (d : Bytes) : ∀ (n : Nat) (v : View), ¬ OnlyLineEnds d →
    (run hr n (v, .live .start none) d).1.state ≠ .none ∨ ∃ v' e, run hr n (v, .live .start none) d = (v', .dead e) := by
  induction d with
  | nil => intro n v h; exact absurd (fun c hc => by cases hc) h
  | cons c cs ih =>
    intro n v h
    rw [run_cons]
    by_cases hc : c = 13 ∨ c = 10
    · have hs : step .start c = .done .start := by
        show (if c = 13 ∨ c = 10 then _ else _) = _
        rw [if_pos hc]
      rw [hs]
      refine ih _ _ fun h' => h fun x hx => ?_
      rcases List.mem_cons.mp hx with rfl | hx
      · exact hc
      · exact h' x hx
    · by_cases h72 : c = 72
      · left
        have hs : step .start c = .act .messageBegin (.done (.proto (ascii "TTP/1."))) := by
          show (if c = 13 ∨ c = 10 then _ else if c = 72 then _ else _) = _
          rw [if_neg hc, if_pos h72]
        rw [hs]
        refine (run_le cs _ _).begun ?_
        show (View.step v ⟨.messageBegin, 0, []⟩).state ≠ .none
        simp [View.step]
      · right
        have hs : step .start c = .fail .invalidConstant := by
          show (if c = 13 ∨ c = 10 then _ else if c = 72 then _ else _) = _
          rw [if_neg hc, if_neg h72]
        rw [hs]
        exact ⟨_, _, run_dead ..⟩

/-- **C82, exactly.** For every history, every request and every flag: a call that returns returns HTTPNoResponse exactly when the transport has reported no
error and all data received, if any, is CR and LF (blank lines before a response, which the parser skips). -/
theorem C82_exact {w : World PLog σ} (hp : RecvPre true httpParser cfg T recv resp rh b rb w.mem) (fuel : Nat) :
    ∃ res w' evs, HTTPClient_ReceiveAndParseHttpResponse httpParser cfg fuel (some T) (some resp) (some rh) w = (res, w') ∧ w'.log = w.log ++ evs ∧
      ∀ st resp', res = .ok (st, resp') → (st = .noResponse ↔ st ≠ .networkError ∧ OnlyLineEnds (received evs)) := by
  obtain ⟨res, w', evs, e, hl, _⟩ := C31_receive_error hp fuel
  refine ⟨res, w', evs, e, hl, ?_⟩
  rintro st resp' rfl
  by_cases hne : st = .networkError
  · subst hne; simp
  obtain ⟨er, f1, f2, f3, _, _, _, f6⟩ := returned_fed hp e hl hne
  generalize headersAnswer resp.respOptionFlags (startsHead w.mem rb) = hr at f1
  have hfv := feed_view http_machine_ok hr (calls evs)
  rw [show feedAll http.toParser = feedAll httpParser from rfl, f1, f2] at hfv
  have hrun : ∀ p, absRun http hr 0 (View.empty, .live http.init none) p = run hr 0 (View.empty, .live .start none) p := fun _ => rfl
  rw [hrun] at hfv
  rcases hfv with ⟨v, a, o, g1, _, _, g2, g3⟩ | ⟨v, er', g1, g4, g5, g3⟩
  · have her : er = .ok := congrArg Prod.snd g3
    subst her
    have hms : msgState evs = v.state := by unfold msgState; rw [g2]
    rw [if_neg (by decide), if_pos (.inl rfl), hms] at f6
    have h1 : st = .noResponse ↔ v.state = .none := by
      rw [f6]
      cases v.state <;> cases decide ((received evs).length = resp.bufferLen) <;>
        cases decide (resp.respOptionFlags &&& DO_NOT_PARSE_BODY_FLAG ≠ 0) <;> simp [finalStatus]
    rw [h1]
    constructor
    · intro h
      refine ⟨hne, Classical.byContradiction fun hc => ?_⟩
      rcases run_begins (hr := hr) _ 0 View.empty hc with h2 | ⟨v', e', h2⟩
      · rw [g1] at h2; exact h2 h
      · rw [g1] at h2; cases h2
    · rintro ⟨_, h⟩
      have := run_lineEnds (hr := hr) _ 0 View.empty h
      rw [g1] at this
      rw [(Prod.mk.inj this).1]; rfl
  · have her : er = er' := congrArg Prod.snd g3
    subst her
    have hst : st ≠ .noResponse := by
      rw [f6]
      by_cases hpa : er = .paused
      · rw [if_pos hpa]; decide
      · rw [if_neg hpa, if_neg (fun h => h.elim g4 (fun h => absRun_never (M := http) (by decide) http_never_upgrade _ 0
          (View.empty, .live http.init none) (fun h => by cases h) (h ▸ congrArg Prod.snd g1)))]
        cases er <;> simp [processLlhttpError]
    refine ⟨fun h => absurd h hst, ?_⟩
    rintro ⟨_, h⟩
    have := run_lineEnds (hr := hr) _ 0 View.empty h
    rw [g1] at this
    cases this

/-- **C82, refuted.** A response of blank lines only: two bytes are received, and the call returns HTTPNoResponse. -/
theorem C82_refuted : (seen (exRun exGet 200 0 [ascii "\r\n"])).map Seen.st = some .noResponse ∧
    received (exRun exGet 200 0 [ascii "\r\n"]).2.log = ascii "\r\n" := by decide +kernel

/-- The same with the whole response buffer filled: the caller is told that nothing came, not that the buffer is too small. -/
theorem C82_refuted_full : (seen (exRun exGet 6 0 [ascii "\r\n\r\n\r\nHTTP/1.1 204 No Content\r\n\r\n"])).map Seen.st = some .noResponse ∧
    received (exRun exGet 6 0 [ascii "\r\n\r\n\r\nHTTP/1.1 204 No Content\r\n\r\n"]).2.log = ascii "\r\n\r\n\r\n" := by decide +kernel

/-- **C82, partial.** Unless the data begins with CR or LF (missing: leading blank lines), HTTPNoResponse is returned only when no data was received; and
without data and without a transport error it is always returned. -/
theorem C82_no_data_partial {w : World PLog σ} (hp : RecvPre true httpParser cfg T recv resp rh b rb w.mem) (fuel : Nat) :
    ∃ res w' evs, HTTPClient_ReceiveAndParseHttpResponse httpParser cfg fuel (some T) (some resp) (some rh) w = (res, w') ∧ w'.log = w.log ++ evs ∧
      ∀ st resp', res = .ok (st, resp') →
        ((∀ c cs, received evs = c :: cs → c ≠ 13 ∧ c ≠ 10) → st = .noResponse → received evs = []) ∧
        (received evs = [] → st ≠ .networkError → st = .noResponse) := by
  obtain ⟨res, w', evs, e, hl, h⟩ := C82_exact hp fuel
  refine ⟨res, w', evs, e, hl, fun st resp' hr => ⟨fun h1 h2 => ?_, fun h1 h2 => ?_⟩⟩
  · have h3 := ((h st resp' hr).mp h2).2
    cases hd : received evs with
    | nil => rfl
    | cons c cs =>
      rw [hd] at h3
      have h4 := h1 c cs hd
      rcases h3 c (by simp) with h5 | h5
      · exact absurd h5 h4.1
      · exact absurd h5 h4.2
  · refine (h st resp' hr).mpr ⟨h2, ?_⟩
    rw [h1]; intro c hc; cases hc

/-- Non-vacuity: the hypotheses hold for the runs above, and for a transport that delivers nothing. -/
example : RecvPre true httpParser exCfg scriptT scriptRecv (exResp 200 0) (exReq exGet) 1 0 (exRMem exGet 200) :=
  exRecvPre exGet (by decide) 200 (by decide) (by decide) 0
example : (seen (exRun exGet 200 0 [])).map Seen.st = some .noResponse ∧ received (exRun exGet 200 0 []).2.log = [] := by decide +kernel

end CoreHttp.Props

import Verif.Lemmas.RecvPair
import Verif.Props.Response
import Verif.Props.SendRecv

/-! # Property C50: the response may share the request's buffer -/

namespace CoreHttp.Props
open CoreHttp Spec
variable {σ : Type} {P : Parser} {cfg : Cfg} {strict : Bool} {T : Transport σ} {send : σ → Bytes → Int × σ} {recv : σ → Nat → Int × Bytes × σ}
  {resp : Resp σ} {rh : ReqHeaders} {b b' rb : Nat} {body : Option Nat} {n : Nat} {flags : UInt32}

theorem observable_received (evs : List (Ev PLog)) : received (observable evs) = received evs := by
  induction evs with
  | nil => rfl
  | cons e es ih =>
    cases e with
    | parserEvent p => cases p <;> simpa [observable, received] using ih
    | _ => simp [observable, received, ih]

theorem observable_reported (evs : List (Ev PLog)) : reported (observable evs) = reported evs := by
  induction evs with
  | nil => rfl
  | cons e es ih =>
    cases e with
    | parserEvent p => cases p <;> simpa [observable, reported] using ih
    | _ => simp [observable, reported, ih]

theorem observable_sends (evs : List (Ev PLog)) : sends (observable evs) = sends evs := by
  induction evs with
  | nil => rfl
  | cons e es ih =>
    cases e with
    | parserEvent p => cases p <;> simpa [observable, sends] using ih
    | _ => simp [observable, sends, ih]

theorem sending_obs {evs : List (Ev PLog)} (hk : ∀ e ∈ evs, e.isSending = true) : obsOf evs = [] := by
  induction evs with
  | nil => rfl
  | cons e es ih =>
    have h1 := ih fun e he => hk e (List.mem_cons_of_mem _ he)
    have h2 := hk e List.mem_cons_self
    cases e <;> simp [Ev.isSending] at h2 <;> exact h1

/-- **C50.** Two calls of HTTPClient_Send from the same state that differ only in the block the response goes to; that may be the block of the
request headers (`b' = rb`), or of the body. They behave the same to the outside, event for event (bytes offered to the transport, data received,
clock readings, headers reported), leave the application in the same state, return the same status, the same request object and response
objects that differ only in the buffer address; what was received is the same in both buffers, and so is the body. -/
theorem C50_shared_buffer {w : World PLog σ} (hp : CallPre strict P cfg T send recv rh rb body n resp b w.mem)
    (hp' : CallPre strict P cfg T send recv rh rb body n { resp with pBuffer := some b' } b' w.mem) (hf : RecvFills recv) (fuel : Nat) :
    ∃ r w₁ evs r' w₂ evs', HTTPClient_Send P cfg fuel (some T) (some rh) body n (some resp) flags w = (r, w₁) ∧ w₁.log = w.log ++ evs ∧
      HTTPClient_Send P cfg fuel (some T) (some rh) body n (some { resp with pBuffer := some b' }) flags w = (r', w₂) ∧ w₂.log = w.log ++ evs' ∧
      observable evs' = observable evs ∧ w₂.env = w₁.env ∧
      ((r = .more ∧ r' = .more) ∨
        ∃ st rh' q, r = .ok (st, some rh', some q) ∧ r' = .ok (st, some rh', some { q with pBuffer := some b' }) ∧
          (w₂.mem b').take (received evs).length = (w₁.mem b).take (received evs).length ∧
          (recvs evs ≠ [] → st ≠ .networkError ∨ obsOf evs ≠ [] → bodyBytes w₂.mem { q with pBuffer := some b' } = bodyBytes w₁.mem q)) := by
  rw [send_eq hp fuel, send_eq hp' fuel]
  have hclock : (withClock { resp with pBuffer := some b' }).getTime = (withClock resp).getTime := rfl
  rw [hclock]
  simp only [M.bind_apply]
  rcases sendRequest_spec (flags := flags) (withClock_ne resp) hp fuel with ⟨h1, h2⟩ | ⟨h1, r, s', m', rh', evs, e, hfr, hb, hbl, hle, hB, hlen, h2⟩
  · rw [h2]
    exact ⟨_, w, [], _, w, [], rfl, by simp, rfl, by simp, rfl, rfl, .inr ⟨_, rh, withClock resp, rfl, rfl, by simp [received], fun h => absurd rfl h⟩⟩
  · rw [e]
    have hsnd : ∀ all, SendPhase (wireHeaders (headerBlock w.mem rh) n flags.toNat) (bodyOf w.mem body n) evs all → recvs evs = [] ∧ received evs = [] ∧ obsOf evs = [] := by
      intro all h
      have := sending_kinds h.kinds
      exact ⟨this.1, this.2.2.2, sending_obs h.kinds⟩
    rcases h2 with ⟨rfl, h2⟩ | ⟨rfl | rfl, h2⟩
    · -- sent
      dsimp only
      rw [if_pos rfl, if_pos rfl]
      have hrp := recvPre_of (flags := flags) hp hfr hb hbl hle hB hlen
      have hrp' := recvPre_of (flags := flags) hp' hfr hb hbl hle hB hlen
      change RecvPre strict P cfg T recv { withClock resp with pBuffer := some b' } rh' b' rb m' at hrp'
      obtain ⟨k, g1, g2⟩ := receive_pair (w := ⟨s', m', w.log ++ evs⟩) hrp hrp' hf fuel
      obtain ⟨r₂, w₂, evs₂, e2, hl2, _, _, _, hloc⟩ := C42_locations_inside (w := ⟨s', m', w.log ++ evs⟩) hrp fuel
      have hwc : withClock { resp with pBuffer := some b' } = { withClock resp with pBuffer := some b' } := rfl
      rw [hwc]
      obtain ⟨_, _, h3⟩ := hsnd _ h2
      have h4 := hsnd _ h2
      simp only [M.bind_apply]
      rw [e2] at g1 g2 ⊢
      have hl' := g1.log
      obtain ⟨r₃, w₃, evs₃, e3, hl3, _⟩ := receive_no_send (w := ⟨s', m', w.log ++ evs⟩) hrp' fuel
      rw [e3] at g1 g2 hl' ⊢
      dsimp only at g1 g2 hl' hl2 hl3 ⊢
      have hobs : observable (evs ++ evs₃) = observable (evs ++ evs₂) := by
        rw [hl2, hl3] at hl'
        simpa using hl'
      cases r₂ with
      | more =>
        cases r₃ <;> simp only [SimRun] at g2
        exact ⟨_, _, evs ++ evs₂, _, _, evs ++ evs₃, rfl, by rw [hl2]; simp, rfl, by rw [hl3]; simp, hobs, g1.env, .inl ⟨rfl, rfl⟩⟩
      | fault f =>
        exfalso
        obtain ⟨r₄, w₄, evs₄, e4, _, _, hnf, _⟩ := receive_no_send (w := ⟨s', m', w.log ++ evs⟩) hrp fuel
        rw [e2] at e4
        cases e4
        exact hnf f rfl
      | ok x =>
        cases r₃ <;> simp only [SimRun] at g2
        obtain ⟨rfl, hpb, evs₅, hl5, rfl⟩ := g2
        have hev : evs₅ = evs₂ := List.append_cancel_left (hl5.symm.trans hl2)
        subst hev
        refine ⟨_, _, evs ++ evs₅, _, _, evs ++ evs₃, rfl, by rw [hl2]; simp, rfl, by rw [hl3]; simp, hobs, g1.env, .inr ⟨x.1, rh', x.2, rfl, rfl, ?_, ?_⟩⟩
        · rw [received_append, h4.2.1]; exact g1.blk
        · intro _ hne
          have hob : obsOf (evs ++ evs₅) = obsOf evs₅ := by rw [obsOf_append, h3]; rfl
          rw [hob] at hne
          obtain ⟨_, _, q3, q4, _⟩ := hloc x.1 x.2 rfl hne
          unfold bodyBytes
          rw [hpb]
          dsimp only
          cases hq : x.2.pBody with
          | none => rfl
          | some q =>
            dsimp only
            have := q3 q hq
            refine slice_congr fun i _ hi => ?_
            have hbk := congrArg (·[i]?) g1.blk
            simpa only [List.getElem?_take, if_pos (show i < (received evs₅).length by omega)] using hbk
    · dsimp only
      rw [if_neg (by decide), if_neg (by decide)]
      obtain ⟨h3, h4, h5⟩ := hsnd _ h2
      exact ⟨_, _, evs, _, _, evs, rfl, rfl, rfl, rfl, rfl, rfl, .inr ⟨_, rh', withClock resp, rfl, rfl, by rw [h4]; rfl, fun h => absurd h3 h⟩⟩
    · obtain ⟨h3, h4, h5⟩ := hsnd _ h2
      exact ⟨_, _, evs, _, _, evs, rfl, rfl, rfl, rfl, rfl, rfl, .inl ⟨rfl, rfl⟩⟩

/-- In terms of what the application can see: the same calls of the transport with the same data, the same data received, the same headers. -/
theorem C50_same_traffic {w : World PLog σ} (hp : CallPre strict P cfg T send recv rh rb body n resp b w.mem)
    (hp' : CallPre strict P cfg T send recv rh rb body n { resp with pBuffer := some b' } b' w.mem) (hf : RecvFills recv) (fuel : Nat) :
    ∃ r w₁ evs r' w₂ evs', HTTPClient_Send P cfg fuel (some T) (some rh) body n (some resp) flags w = (r, w₁) ∧ w₁.log = w.log ++ evs ∧
      HTTPClient_Send P cfg fuel (some T) (some rh) body n (some { resp with pBuffer := some b' }) flags w = (r', w₂) ∧ w₂.log = w.log ++ evs' ∧
      sends evs' = sends evs ∧ received evs' = received evs ∧ reported evs' = reported evs := by
  obtain ⟨r, w₁, evs, r', w₂, evs', e, hl, e', hl', ho, _⟩ := C50_shared_buffer (flags := flags) hp hp' hf fuel
  exact ⟨r, w₁, evs, r', w₂, evs', e, hl, e', hl', by rw [← observable_sends evs', ho, observable_sends],
    by rw [← observable_received evs', ho, observable_received], by rw [← observable_reported evs', ho, observable_reported]⟩

/-! ### Non-vacuity -/

theorem scriptRecv_fills : RecvFills scriptRecv := by
  rintro ⟨t, s⟩ len
  cases s <;> simp [scriptRecv]

/-- A request with a body and a chunked response received in pieces: separate buffers (block 1) and the request's own buffer (block 0) meet the
hypotheses, the request is overwritten in the second case, and both give the response with body `abcde`. -/
example : CallPre true Ref.httpParser exCfg xT xSend scriptRecv xReq 0 (some 2) 5 { exResp 200 0 with pBuffer := some 1 } 1 xMem ∧
    CallPre true Ref.httpParser exCfg xT xSend scriptRecv xReq 0 (some 2) 5 { exResp 200 0 with pBuffer := some 0 } 0 xMem ∧ RecvFills scriptRecv ∧
    (xSeen (xRun 0)).map (·.body) = some (ascii "abcde") ∧ xSeen (xRun 0) = xSeen (xRun 1) ∧
    ((xRun 0).2.mem 0).take 8 = ascii "HTTP/1.1" ∧ ((xRun 1).2.mem 0).take 8 = ascii "PUT / HT" :=
  ⟨xCallPre 1 (.inr rfl), xCallPre 0 (.inl rfl), scriptRecv_fills, by decide +kernel, by decide +kernel, by decide +kernel, by decide +kernel⟩

end CoreHttp.Props

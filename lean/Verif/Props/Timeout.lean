import Verif.Props.ReceiveEx

/-! # C32: what a receive timeout is reported as -/

namespace CoreHttp.Props
open CoreHttp Spec

theorem recvs_append (xs ys : List (Ev PLog)) : recvs (xs ++ ys) = recvs xs ++ recvs ys := by
  induction xs with
  | nil => rfl
  | cons x xs ih => cases x <;> simp [recvs, ih]

theorem received_no_recvs {xs : List (Ev PLog)} (h : recvs xs = []) : received xs = [] := by
  induction xs with
  | nil => rfl
  | cons x xs ih => cases x <;> simp_all [recvs, received]

theorem received_append' (xs ys : List (Ev PLog)) : received (xs ++ ys) = received xs ++ received ys := by
  induction xs with
  | nil => rfl
  | cons x xs ih => cases x <;> simp_all [received]

/-- **C32, partial: what a receive timeout is reported as** (missing: HTTPNetworkError, which it never is). When the last receive delivered nothing and the parser
takes the end of the input without error (HTTP_RESPONSE_DO_NOT_PARSE_BODY_FLAG clear), the call returns HTTPNoResponse if no message had begun, HTTPPartialResponse if
one had begun and is not complete, HTTPSuccess if it is complete; the buffer is never reported to be too small. -/
theorem C32_timeout_partial {σ : Type} {P : Parser} {cfg : Cfg} {strict : Bool} {T : Transport σ} {recv : σ → Nat → Int × Bytes × σ} {resp : Resp σ}
    {rh : ReqHeaders} {b rb : Nat} {w : World PLog σ} (hp : RecvPre strict P cfg T recv resp rh b rb w.mem) (fuel : Nat)
    (hflag : ¬ headersOnly resp.respOptionFlags) :
    ∃ r w' evs, HTTPClient_ReceiveAndParseHttpResponse P cfg fuel (some T) (some resp) (some rh) w = (r, w') ∧ w'.log = w.log ++ evs ∧
      ∀ st resp', r = .ok (st, resp') →
      ∀ pre off len data mid ep, evs = pre ++ .recv off len 0 data :: (mid ++ [.parserEvent (.ret .ok ep)]) → recvs mid = [] →
        (st = .noResponse ↔ msgState evs = .none) ∧ (st = .partialResponse ↔ msgState evs = .incomplete) ∧ (st = .success ↔ msgState evs = .complete) ∧
        st ≠ .insufficientMemory ∧ st ≠ .networkError := by
  obtain ⟨r, w', evs, e, hl, h29, -⟩ := C29_receive_contiguous hp fuel
  obtain ⟨r1, w1, evs1, e1, hl1, h37⟩ := C37_classified hp fuel hflag
  obtain ⟨r2, w2, evs2, e2, hl2, h32⟩ := C32_refuted hp fuel
  rw [e] at e1 e2
  obtain ⟨rfl, rfl⟩ := Prod.mk.inj e1
  obtain ⟨rfl, rfl⟩ := Prod.mk.inj e2
  obtain rfl := List.append_cancel_left (hl.symm.trans hl1)
  obtain rfl := List.append_cancel_left (hl.symm.trans hl2)
  refine ⟨_, _, _, e, hl, ?_⟩
  intro st resp' hr pre off len data mid ep hev hmid
  obtain ⟨a1, a2, a3, a4⟩ := h37 st resp' hr (pre ++ .recv off len 0 data :: mid) ep (by rw [hev]; simp)
  obtain ⟨b1, b2, b3, b4⟩ := h29 _ _ _ _ _ _ hev
  have hd : data = [] := List.length_eq_zero_iff.mp (by simpa using b4)
  have hrec : (received evs).length < resp.bufferLen := by
    have : received evs = received pre := by
      rw [hev, received_append']
      have : received (.recv off len 0 data :: (mid ++ [.parserEvent (.ret .ok ep)])) = data ++ received (mid ++ [.parserEvent (.ret .ok ep)]) := rfl
      rw [this, hd, received_append', received_no_recvs hmid]
      simp [received]
    rw [this]; omega
  refine ⟨a1, ?_, a4, ?_, ?_⟩
  · rw [a3]; exact ⟨fun h => h.1, fun h => ⟨h, hrec⟩⟩
  · rw [Ne, a2]; omega
  · rintro rfl
    exact h32 _ _ _ _ _ hev (by rw [recvs_append, hmid]; rfl) resp' hr

deriving instance DecidableEq for PLog, Ev

/-- Not vacuous: the retry timeout expires in the middle of a response, and the trace has the stated form. -/
example : ∃ pre off len data mid ep, (exRun exGet 200 0 [ascii "HTTP/1.1 20"]).2.log = pre ++ .recv off len 0 data :: (mid ++ [.parserEvent (.ret .ok ep)]) ∧
    recvs mid = [] := by
  exact ⟨(exRun exGet 200 0 [ascii "HTTP/1.1 20"]).2.log.take 25, 11, 189, [], [.time 5, .parserCall 11 []], 0,
    (List.take_append_drop 25 _).symm.trans (congrArg _ (by decide +kernel)), rfl⟩

end CoreHttp.Props

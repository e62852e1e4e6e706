import Verif.Lemmas.SendHeaders
import Verif.Lemmas.RecvTrace
import Verif.Spec.SendRecv

/-! # HTTPClient_Send as a whole -/

namespace CoreHttp
open Spec
variable {π σ : Type}

/-- A sending event: a call of the send function or a clock reading. -/
def Ev.isSending : Ev π → Bool
  | .send _ _ => true
  | .time _ => true
  | _ => false

theorem SendTrace.kinds {T : UInt32} {rem last} {evs : List (Ev π)} {o} (h : SendTrace T rem last evs o) : ∀ e ∈ evs, e.isSending = true := by
  induction h with
  | done => simp
  | cut h => simp
  | err h hr => simp [Ev.isSending]
  | progress h hr hle k ih => simp [Ev.isSending]; exact ih
  | retry h hr k ih => simp [Ev.isSending]; exact ih
  | timeout h hr => simp [Ev.isSending]

@[simp] theorem accepted_append' (a c : List (Ev π)) : accepted (a ++ c) = accepted a ++ accepted c := by
  induction a with
  | nil => rfl
  | cons e es ih => cases e <;> simp [accepted, ih]

theorem withClock_ne (resp : Resp σ) : (withClock resp).getTime ≠ .null := by
  unfold withClock
  cases h : resp.getTime <;> simp

/-- The trace of a sending phase with headers `hd` and body `bd`, observed so far with outcome: every byte accepted? -/
structure SendPhase (hd bd : Bytes) (evs : List (Ev π)) (all : Bool) : Prop where
  kinds : ∀ e ∈ evs, e.isSending = true
  prefix_ : accepted evs <+: hd ++ bd
  all_ : all = true → accepted evs = hd ++ bd
  offered : ∀ pre d ret post, evs = pre ++ .send d ret :: post →
    d ≠ [] ∧ (accepted pre ++ d = hd ∨ (hd <+: accepted pre ∧ accepted pre ++ d = hd ++ bd))

variable {P : Parser} {cfg : Cfg} {strict : Bool} {T : Transport σ} {send : σ → Bytes → Int × σ} {recv : σ → Nat → Int × Bytes × σ} {resp : Resp σ}
  {rh : ReqHeaders} {b rb : Nat} {body : Option Nat} {n : Nat} {flags : UInt32}

theorem sendRequest_spec {clock : TimeFn σ} (hc : clock ≠ .null) {w : World π σ}
    (hp : CallPre strict P cfg T send recv rh rb body n resp b w.mem) (fuel : Nat) :
    (rh.bufferLen < (wireHeaders (headerBlock w.mem rh) n flags.toNat).length ∧
      sendHttpRequest cfg fuel (some T) clock (some rh) body n flags w = (.ok (.insufficientMemory, some rh), w)) ∨
    ((wireHeaders (headerBlock w.mem rh) n flags.toNat).length ≤ rh.bufferLen ∧
      ∃ r s' m' rh' evs, sendHttpRequest cfg fuel (some T) clock (some rh) body n flags w = (r, ⟨s', m', w.log ++ evs⟩) ∧
        FrameBuf w.mem m' rb rh.bufferLen ∧ rh'.pBuffer = some rb ∧ rh'.bufferLen = rh.bufferLen ∧ rh'.headersLen ≤ rh'.bufferLen ∧
        headerBlock m' rh' = wireHeaders (headerBlock w.mem rh) n flags.toNat ∧ rh'.headersLen = (headerBlock m' rh').length ∧
        ((r = .ok (.success, some rh') ∧ SendPhase (wireHeaders (headerBlock w.mem rh) n flags.toNat) (bodyOf w.mem body n) evs true) ∨
         ((r = .ok (.networkError, some rh') ∨ r = .more) ∧
            SendPhase (wireHeaders (headerBlock w.mem rh) n flags.toNat) (bodyOf w.mem body n) evs false))) := by
  have pre : SendPre cfg T send clock w.mem rh rb := ⟨hp.hasSend, hp.sendOk, hc, ⟨hp.reqBuf, hp.reqRoom⟩, hp.reqLe, hp.reqSize⟩
  have hmax := hp.bodyMax
  have a1 : (body.isSome || decide (n = 0)) = true := by
    cases hb : body with
    | none => simp [hp.bodyNone hb]
    | some bb => simp
  have start : sendHttpRequest cfg fuel (some T) clock (some rh) body n flags w =
      (HTTPClient_SendHttpHeaders cfg fuel (some T) clock (some rh) n flags >>= fun r =>
        if r.1 = .success then
          match body with
          | some b => do
            let st ← sendHttpBody cfg fuel (some T) clock (some b) n
            pure (st, r.2)
          | none => pure r
        else pure r) w := by
    unfold sendHttpRequest
    rw [a1]
    cases clock with
    | null => exact absurd rfl hc
    | zero => rfl
    | user f => rfl
  by_cases hfit : (wireHeaders (headerBlock w.mem rh) n flags.toNat).length ≤ rh.bufferLen
  · refine .inr ⟨hfit, ?_⟩
    obtain ⟨h', m', hb, hbl, hle, hfr, hB, hlen, _, e⟩ := sendHeaders_fit (fuel := fuel) pre hmax hfit
    generalize hhd : wireHeaders (headerBlock w.mem rh) n flags.toNat = hd at *
    have hml : h'.headersLen ≤ (m' rb).length := by rw [hfr.2.1]; have := hp.reqRoom; omega
    obtain ⟨r, s', t0, evs, e2, tr⟩ := sendData_trace (cfg := cfg) (fuel := fuel) (w := ⟨w.env, m', w.log⟩) pre.transport pre.sendOk
      pre.clockOk hml
    have hblk : (m' rb).take h'.headersLen = hd := by rw [← hB]; simp [headerBlock, hb]
    dsimp only at e2 tr
    rw [hblk] at tr
    have hk : ∀ e ∈ Ev.time t0 :: evs, e.isSending = true := by
      intro e he
      rcases List.mem_cons.mp he with rfl | he
      · rfl
      · exact tr.kinds e he
    have hoff : ∀ pre d ret post, .time t0 :: evs = pre ++ .send d ret :: post → d ≠ [] ∧ accepted pre ++ d = hd := by
      intro pre d ret post h
      rcases split_cons h with ⟨_, h1, _⟩ | ⟨pre', rfl, h1⟩
      · cases h1
      have := tr.offered _ _ _ _ h1
      exact ⟨this.2.1, by simpa [accepted] using this.1⟩
    have hacc : accepted (Ev.time t0 :: evs) = accepted evs := rfl
    rw [start]
    simp only [M.bind_apply, e, e2]
    rcases tr.outcome with rfl | rfl | rfl
    · have hall := tr.accepted_prefix.2.mp rfl
      cases hbody : body with
      | none =>
        refine ⟨_, _, _, h', _, rfl, hfr, hb, hbl, hle, hB, hlen, .inl ⟨rfl, ?_⟩⟩
        exact ⟨hk, by rw [hacc, hall]; simp [bodyOf], fun _ => by rw [hacc, hall]; simp [bodyOf],
          fun pre d ret post h => ⟨(hoff _ _ _ _ h).1, .inl (hoff _ _ _ _ h).2⟩⟩
      | some bb =>
        obtain ⟨hbr, hbne⟩ := hp.bodyRoom bb hbody
        have hmb : m' bb = w.mem bb := hfr.1 bb hbne
        obtain ⟨r, s'', t1, evs1, e3, tr1⟩ := sendData_trace (cfg := cfg) (fuel := fuel) (w := ⟨s', m', w.log ++ .time t0 :: evs⟩)
          pre.transport pre.sendOk pre.clockOk (b := bb) (len := n) (by dsimp only; rw [hmb]; exact hbr)
        dsimp only at e3 tr1
        rw [hmb] at tr1
        have hbd : bodyOf w.mem (some bb) n = (w.mem bb).take n := rfl
        have e4 : sendHttpBody cfg fuel (some T) clock (some bb) n ⟨s', m', w.log ++ .time t0 :: evs⟩ =
            (r, ⟨s'', m', w.log ++ (.time t0 :: evs ++ .time t1 :: evs1)⟩) := by
          unfold sendHttpBody
          simp only [pre.transport]
          rw [e3]; simp
        have hk1 : ∀ e ∈ Ev.time t0 :: evs ++ .time t1 :: evs1, e.isSending = true := by
          intro e he
          rcases List.mem_append.mp he with he | he
          · exact hk e he
          rcases List.mem_cons.mp he with rfl | he
          · rfl
          · exact tr1.kinds e he
        have hoff1 : ∀ pre d ret post, Ev.time t0 :: evs ++ .time t1 :: evs1 = pre ++ .send d ret :: post →
            d ≠ [] ∧ (accepted pre ++ d = hd ∨ (hd <+: accepted pre ∧ accepted pre ++ d = hd ++ bodyOf w.mem (some bb) n)) := by
          intro pre d ret post h
          rcases split_append h with ⟨post', h1, _⟩ | ⟨pre', rfl, h1⟩
          · have := hoff _ _ _ _ h1
            exact ⟨this.1, .inl this.2⟩
          · rcases split_cons h1 with ⟨_, h2, _⟩ | ⟨pre'', rfl, h2⟩
            · cases h2
            have := tr1.offered _ _ _ _ h2
            rw [accepted_append', hacc, hall]
            refine ⟨this.2.1, .inr ⟨List.prefix_append _ _, ?_⟩⟩
            rw [List.append_assoc, hbd, ← this.1]; rfl
        have hacc1 : accepted (Ev.time t0 :: evs ++ .time t1 :: evs1) = hd ++ accepted evs1 := by
          rw [accepted_append', hacc, hall]; rfl
        have hpre1 : accepted (Ev.time t0 :: evs ++ .time t1 :: evs1) <+: hd ++ bodyOf w.mem (some bb) n := by
          rw [hacc1]; exact (List.prefix_append_right_inj _).mpr tr1.accepted_prefix.1
        simp only [M.pure_apply, if_true, M.bind_apply, e4]
        rcases tr1.outcome with rfl | rfl | rfl
        · refine ⟨_, _, _, h', _, rfl, hfr, hb, hbl, hle, hB, hlen, .inl ⟨rfl, ⟨hk1, hpre1, fun _ => ?_, hoff1⟩⟩⟩
          rw [hacc1, tr1.accepted_prefix.2.mp rfl]; rfl
        · exact ⟨_, _, _, h', _, rfl, hfr, hb, hbl, hle, hB, hlen, .inr ⟨.inl rfl, ⟨hk1, hpre1, (fun h => by cases h), hoff1⟩⟩⟩
        · exact ⟨_, _, _, h', _, rfl, hfr, hb, hbl, hle, hB, hlen, .inr ⟨.inr rfl, ⟨hk1, hpre1, (fun h => by cases h), hoff1⟩⟩⟩
    · refine ⟨_, _, _, h', _, rfl, hfr, hb, hbl, hle, hB, hlen, .inr ⟨.inl (by simp), ⟨hk, ?_, (fun h => by cases h), ?_⟩⟩⟩
      · rw [hacc]; exact tr.accepted_prefix.1.trans (List.prefix_append _ _)
      · exact fun pre d ret post h => ⟨(hoff _ _ _ _ h).1, .inl (hoff _ _ _ _ h).2⟩
    · refine ⟨_, _, _, h', _, rfl, hfr, hb, hbl, hle, hB, hlen, .inr ⟨.inr rfl, ⟨hk, ?_, (fun h => by cases h), ?_⟩⟩⟩
      · rw [hacc]; exact tr.accepted_prefix.1.trans (List.prefix_append _ _)
      · exact fun pre d ret post h => ⟨(hoff _ _ _ _ h).1, .inl (hoff _ _ _ _ h).2⟩
  · refine .inl ⟨by omega, ?_⟩
    rw [start]
    have := sendHeaders_nofit (fuel := fuel) (flags := flags) pre hmax (by omega)
    simp only [M.bind_apply, this]
    rfl

/-- Sending a request does not run out of fuel when sending data does not. -/
theorem sendRequest_noMore {clock : TimeFn σ} (hc : clock ≠ .null) {w : World π σ}
    (hp : CallPre strict P cfg T send recv rh rb body n resp b w.mem) {fuel : Nat}
    (hD : ∀ (bk len : Nat) (w : World π σ), len ≤ (w.mem bk).length → len ≤ max rh.bufferLen n →
      (HTTPClient_SendHttpData cfg fuel (some T) clock (some bk) len w).1 ≠ .more) :
    (sendHttpRequest cfg fuel (some T) clock (some rh) body n flags w).1 ≠ .more := by
  have pre : SendPre cfg T send clock w.mem rh rb := ⟨hp.hasSend, hp.sendOk, hc, ⟨hp.reqBuf, hp.reqRoom⟩, hp.reqLe, hp.reqSize⟩
  have hmax := hp.bodyMax
  rcases sendRequest_spec (flags := flags) hc hp fuel with ⟨h1, h2⟩ | ⟨hfit, _⟩
  · rw [h2]; simp
  have a1 : (body.isSome || decide (n = 0)) = true := by
    cases hb : body with
    | none => simp [hp.bodyNone hb]
    | some bb => simp
  have start : sendHttpRequest cfg fuel (some T) clock (some rh) body n flags w =
      (HTTPClient_SendHttpHeaders cfg fuel (some T) clock (some rh) n flags >>= fun r =>
        if r.1 = .success then
          match body with
          | some b => do
            let st ← sendHttpBody cfg fuel (some T) clock (some b) n
            pure (st, r.2)
          | none => pure r
        else pure r) w := by
    unfold sendHttpRequest
    rw [a1]
    cases clock with
    | null => exact absurd rfl hc
    | zero => rfl
    | user f => rfl
  obtain ⟨h', m', hb, hbl, hle, hfr, hB, hlen, _, e⟩ := sendHeaders_fit (fuel := fuel) pre hmax hfit
  have hml : h'.headersLen ≤ (m' rb).length := by rw [hfr.2.1]; have := hp.reqRoom; omega
  have hd := hD rb h'.headersLen ⟨w.env, m', w.log⟩ hml (by omega)
  obtain ⟨r, s', t0, evs, e2, tr⟩ := sendData_trace (cfg := cfg) (fuel := fuel) (w := ⟨w.env, m', w.log⟩) pre.transport pre.sendOk
    pre.clockOk hml
  rw [e2] at hd
  rw [start]
  simp only [M.bind_apply, e, e2]
  rcases tr.outcome with rfl | rfl | rfl
  · simp only [M.pure_apply, if_true]
    cases hbody : body with
    | none => simp
    | some bb =>
      obtain ⟨hbr, hbne⟩ := hp.bodyRoom bb hbody
      have hmb : m' bb = w.mem bb := hfr.1 bb hbne
      have hd2 := hD bb n ⟨s', m', w.log ++ .time t0 :: evs⟩ (by dsimp only; rw [hmb]; exact hbr) (by omega)
      simp only [M.bind_apply, sendHttpBody, pre.transport]
      generalize HTTPClient_SendHttpData cfg fuel (some T) clock (some bb) n ⟨s', m', w.log ++ .time t0 :: evs⟩ = z at hd2
      obtain ⟨r, w2⟩ := z
      cases r <;> simp at hd2 ⊢
  · simp
  · simp at hd

/-- HTTPClient_Send with valid parameters. -/
theorem send_eq {w : World PLog σ} (hp : CallPre strict P cfg T send recv rh rb body n resp b w.mem) (fuel : Nat) :
    HTTPClient_Send P cfg fuel (some T) (some rh) body n (some resp) flags w =
      (sendHttpRequest cfg fuel (some T) (withClock resp).getTime (some rh) body n flags >>= fun x =>
        if x.1 = .success then do
          let (st, resp) ← HTTPClient_ReceiveAndParseHttpResponse P cfg fuel (some T) (some (withClock resp)) x.2
          pure (st, x.2, some resp)
        else pure (x.1, x.2, some (withClock resp))) w := by
  have h1 := hp.pos
  have h2 := hp.reqLe
  have h3 := hp.reqLen
  have h4 : ¬ (body.isNone = true ∧ n > 0) := by
    rintro ⟨h4, h5⟩
    cases hb : body with
    | none => have := hp.bodyNone hb; omega
    | some bb => rw [hb] at h4; cases h4
  have h5 := hp.bodyMax
  have h6 : MINIMUM_REQUEST_LINE_LENGTH = 16 := rfl
  unfold HTTPClient_Send
  simp only [hp.hasSend, hp.hasRecv, hp.reqBuf, hp.buf, Option.isNone_some, Bool.false_eq_true, if_false, h6]
  rw [if_neg (by omega), if_neg (by omega), if_neg (by omega), if_neg h4, if_neg (by omega)]
  simp only [withClock, hp.buf]
  cases resp.getTime <;> rfl

/-- After the request was sent, the conditions for receiving hold. -/
theorem recvPre_of {w : World PLog σ} (hp : CallPre strict P cfg T send recv rh rb body n resp b w.mem) {m' : Mem} {rh' : ReqHeaders}
    (hfr : FrameBuf w.mem m' rb rh.bufferLen) (hb : rh'.pBuffer = some rb) (hbl : rh'.bufferLen = rh.bufferLen) (hle : rh'.headersLen ≤ rh'.bufferLen)
    (hB : headerBlock m' rh' = wireHeaders (headerBlock w.mem rh) n flags.toNat) (hlen : rh'.headersLen = (headerBlock m' rh').length) :
    RecvPre strict P cfg T recv (withClock resp) rh' b rb m' where
  parser := hp.parser
  hasRecv := hp.hasRecv
  recvOk := hp.recvOk
  buf := hp.buf
  pos := hp.pos
  room := by
    show resp.bufferLen ≤ _
    have := hp.room
    by_cases h : b = rb
    · subst h; rw [hfr.2.1]; exact this
    · rw [hfr.1 b h]; exact this
  size := hp.size
  clock := withClock_ne resp
  callback := hp.callback
  reqBuf := hb
  reqLen := by
    rw [hlen, hB]
    unfold wireHeaders
    split
    · have hl14 : (ascii "Content-Length").length = 14 := by decide
      simp only [headerLine, crlf, List.length_append, hl14, List.length_cons, List.length_nil]; omega
    · have := hp.reqLen; have := hp.reqLe; have := hp.reqRoom
      simp only [headerBlock, hp.reqBuf, List.length_take]; omega
  reqRoom := by rw [hfr.2.1]; have := hp.reqRoom; omega

/-- Everything about a call of HTTPClient_Send with valid parameters: (1) the header block with Content-Length does not fit, nothing happens;
(2) sending failed or is under way; (3) the request was sent, and the rest is HTTPClient_ReceiveAndParseHttpResponse. -/
theorem send_spec {w : World PLog σ} (hp : CallPre strict P cfg T send recv rh rb body n resp b w.mem) (fuel : Nat) :
    (rh.bufferLen < (wireHeaders (headerBlock w.mem rh) n flags.toNat).length ∧
      HTTPClient_Send P cfg fuel (some T) (some rh) body n (some resp) flags w =
        (.ok (.insufficientMemory, some rh, some (withClock resp)), w)) ∨
    ((wireHeaders (headerBlock w.mem rh) n flags.toNat).length ≤ rh.bufferLen ∧
      ∃ s1 m1 rh' evs, FrameBuf w.mem m1 rb rh.bufferLen ∧ rh'.pBuffer = some rb ∧ rh'.bufferLen = rh.bufferLen ∧
        headerBlock m1 rh' = wireHeaders (headerBlock w.mem rh) n flags.toNat ∧
        RecvPre strict P cfg T recv (withClock resp) rh' b rb m1 ∧
        ((∃ r, (r = .ok (.networkError, some rh', some (withClock resp)) ∨ r = .more) ∧
            HTTPClient_Send P cfg fuel (some T) (some rh) body n (some resp) flags w = (r, ⟨s1, m1, w.log ++ evs⟩) ∧
            SendPhase (wireHeaders (headerBlock w.mem rh) n flags.toNat) (bodyOf w.mem body n) evs false) ∨
         (HTTPClient_Send P cfg fuel (some T) (some rh) body n (some resp) flags w =
            (HTTPClient_ReceiveAndParseHttpResponse P cfg fuel (some T) (some (withClock resp)) (some rh') >>= fun x =>
              pure (x.1, some rh', some x.2)) ⟨s1, m1, w.log ++ evs⟩ ∧
          SendPhase (wireHeaders (headerBlock w.mem rh) n flags.toNat) (bodyOf w.mem body n) evs true))) := by
  rw [send_eq hp fuel]
  simp only [M.bind_apply]
  rcases sendRequest_spec (flags := flags) (withClock_ne resp) hp fuel with ⟨h1, h2⟩ | ⟨h1, r, s', m', rh', evs, e, hfr, hb, hbl, hle, hB, hlen, h2⟩
  · exact .inl ⟨h1, by rw [h2]; simp⟩
  · refine .inr ⟨h1, s', m', rh', evs, hfr, hb, hbl, hB, recvPre_of hp hfr hb hbl hle hB hlen, ?_⟩
    rw [e]
    rcases h2 with ⟨rfl, h2⟩ | ⟨rfl | rfl, h2⟩
    · exact .inr ⟨by simp, h2⟩
    · exact .inl ⟨_, .inl rfl, by simp, h2⟩
    · exact .inl ⟨_, .inr rfl, rfl, h2⟩

end CoreHttp

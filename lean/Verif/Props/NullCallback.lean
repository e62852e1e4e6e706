import Verif.Lemmas.NullCallback
import Verif.Props.SendRecv

/-! # C88: parameters of HTTPClient_Send that are NULL

The documentation of HTTPClient_Send promises HTTPInvalidParameter "if any provided parameters or their members are invalid". `Usable` says that whatever is
not NULL is what it is claimed to be; anything may be NULL. -/

namespace CoreHttp.Props
open CoreHttp CoreHttp.Spec CoreHttp.Ref
variable {σ : Type} {P : Parser} {strict : Bool} {cfg : Cfg} {flags : UInt32} {body : Option Nat} {n : Nat}

/-- Whatever is not NULL among the parameters and their members can be used: transport functions honour their contract, buffers have the claimed lengths,
the body is not in the request's buffer. Lengths and pointers are otherwise arbitrary. -/
structure Usable (strict : Bool) (P : Parser) (cfg : Cfg) (T : Option (Transport σ)) (rh : Option ReqHeaders) (body : Option Nat) (bodyLen : Nat)
    (resp : Option (Resp σ)) (m : Mem) : Prop where
  parser : ParserOk strict P
  send : ∀ t s, T = some t → t.send = some s → SendOk s
  recv : ∀ t r, T = some t → t.recv = some r → RecvOk r
  req : ∀ h rb, rh = some h → h.pBuffer = some rb → h.bufferLen ≤ (m rb).length ∧ h.bufferLen + 30 < 2 ^ cfg.sizeBits
  resp : ∀ r b, resp = some r → r.pBuffer = some b → r.bufferLen ≤ (m b).length ∧ r.bufferLen < 2 ^ cfg.sizeBits
  body : ∀ bb, body = some bb → bodyLen ≤ (m bb).length ∧ ∀ h, rh = some h → h.pBuffer ≠ some bb

/-- **C88, partial** (missing, because false: a header callback structure whose onHeaderCallback member is NULL). Whatever combination of parameters and members
is NULL – but not that member – HTTPClient_Send makes no call through NULL and trips no other fault; and when any of the pointers it needs is NULL, it
returns HTTPInvalidParameter and does nothing. -/
theorem C88_null_partial {T : Option (Transport σ)} {rh : Option ReqHeaders} {resp : Option (Resp σ)} {w : World PLog σ}
    (hu : Usable strict P cfg T rh body n resp w.mem) (hcb : ∀ r, resp = some r → r.pHeaderParsingCallback ≠ some .null) (fuel : Nat) :
    (∀ f, (HTTPClient_Send P cfg fuel T rh body n resp flags w).1 ≠ .fault f) ∧
    ((T = none ∨ (∃ t, T = some t ∧ (t.send.isNone ∨ t.recv.isNone)) ∨ rh = none ∨ (∃ h, rh = some h ∧ h.pBuffer = none) ∨ resp = none ∨
      (∃ r, resp = some r ∧ r.pBuffer = none) ∨ (body = none ∧ 0 < n)) →
      HTTPClient_Send P cfg fuel T rh body n resp flags w = (.ok (.invalidParameter, rh, resp), w)) := by
  refine ⟨fun f => ?_, fun h => ?_⟩
  · by_cases hok : ParamsOk T rh body n resp
    · obtain ⟨⟨t, s, r, rfl, hs, hr⟩, ⟨h, rb, rfl, hrb, h1, h2⟩, ⟨q, b, rfl, hqb, h3⟩, h4, h5⟩ := hok
      have hq := hu.req h rb rfl hrb
      have hp := hu.resp q b rfl hqb
      obtain ⟨r', w', e, hf, _⟩ := C60_safe (strict := strict) (P := P) (cfg := cfg) (T := t) (send := s) (recv := r) (rh := h) (rb := rb) (body := body)
        (n := n) (resp := q) (b := b) (flags := flags) (w := w) {
          parser := hu.parser
          hasSend := hs
          sendOk := hu.send t s rfl hs
          hasRecv := hr
          recvOk := hu.recv t r rfl hr
          reqBuf := hrb
          reqRoom := hq.1
          reqLen := h1
          reqLe := h2
          reqSize := hq.2
          buf := hqb
          pos := Nat.pos_of_ne_zero h3
          room := hp.1
          size := hp.2
          callback := hcb q rfl
          bodyNone := h4
          bodyRoom := fun bb hbb => ⟨(hu.body bb hbb).1, fun hx => (hu.body bb hbb).2 h rfl (by rw [hrb, hx])⟩
          bodyMax := h5 } fuel
      rw [e]
      exact hf f
    · rw [C27_invalid hok]; simp
  · refine C27_invalid (fun hok => ?_) fuel w
    obtain ⟨⟨t, s, r, rfl, hs, hr⟩, ⟨h, rb, rfl, hrb, _⟩, ⟨q, b, rfl, hqb, _⟩, h4, _⟩ := hok
    rcases h with h | ⟨t', ht, h⟩ | h | ⟨h', ht, h⟩ | h | ⟨q', ht, h⟩ | ⟨h, h'⟩
    · cases h
    · cases ht; rw [hs, hr] at h; simp at h
    · cases h
    · cases ht; rw [hrb] at h; cases h
    · cases h
    · cases ht; rw [hqb] at h; cases h
    · have := h4 h; omega

/-- Receiving with a callback structure whose function is NULL: a call through NULL, or the same as without a callback structure. -/
theorem receive_unset (T : Option (Transport σ)) (orh : Option ReqHeaders) (resp : Resp σ) (hc : resp.pHeaderParsingCallback = none) (fuel : Nat) :
    Unset (HTTPClient_ReceiveAndParseHttpResponse P cfg fuel T (some resp) orh)
      (HTTPClient_ReceiveAndParseHttpResponse P cfg fuel T (some { resp with pHeaderParsingCallback := some .null }) orh)
      fun x y => x.1 = y.1 ∧ x.2.pHeaderParsingCallback = none ∧ y.2 = { x.2 with pHeaderParsingCallback := some .null } ∧
        (x.2.headerCount = 0 ∨ x.2 = resp) := by
  unfold HTTPClient_ReceiveAndParseHttpResponse
  cases T with
  | none => exact .of .fault
  | some T =>
    dsimp only
    cases T.recv with
    | none => exact .of .fault
    | some recv =>
      cases orh with
      | none => exact .of .fault
      | some rh =>
        dsimp only
        refine .bind (R := fun x y => x = y ∧ x.bound = false ∧ x.cur = none) ?_ ?_
        · unfold initializeParsingContext
          dsimp only
          refine .same fun _ => ?_
          cases rh.pBuffer with
          | none => exact .crash
          | some rb => exact .same fun _ => .same fun _ => .pure ⟨rfl, rfl, rfl⟩
        · rintro ctx _ ⟨rfl, hb, hn⟩
          refine .same fun last => ?_
          cases hpb : resp.pBuffer with
          | none => exact .crash
          | some b =>
            refine .bind (recvLoop_unset P cfg recv _ b fuel 0 last resp ⟨resp, ctx⟩ _ ⟨hc, by rw [← hpb], fun h => ?_⟩ (.inr ⟨rfl, hn⟩)) ?_
            · dsimp only at h; rw [hb] at h; cases h
            · rintro ⟨st, total, g⟩ ⟨st', total', g'⟩ ⟨e1, e2, e3, e4⟩
              dsimp only at e1 e2 e3 e4 ⊢
              subst e1 e2
              exact finishReceive_unset cfg st total resp g g' e3 e4

/-- HTTPClient_Send with a callback structure whose function is NULL: a call through NULL, or the same as without a callback structure – and then no header
has been counted. -/
theorem C88_unset {resp : Resp σ} (hc : resp.pHeaderParsingCallback = none) (T : Option (Transport σ)) (rh : Option ReqHeaders) (fuel : Nat) (w : World PLog σ) :
    (HTTPClient_Send P cfg fuel T rh body n (some { resp with pHeaderParsingCallback := some .null }) flags w).1 = .fault .nullCall ∨
    ((HTTPClient_Send P cfg fuel T rh body n (some { resp with pHeaderParsingCallback := some .null }) flags w).2 =
      (HTTPClient_Send P cfg fuel T rh body n (some resp) flags w).2 ∧
      ∀ st orh resp', (HTTPClient_Send P cfg fuel T rh body n (some resp) flags w).1 = .ok (st, orh, some resp') →
        (HTTPClient_Send P cfg fuel T rh body n (some { resp with pHeaderParsingCallback := some .null }) flags w).1 =
          .ok (st, orh, some { resp' with pHeaderParsingCallback := some .null }) ∧ (resp'.headerCount = 0 ∨ resp' = withClock resp ∨ resp' = resp)) := by
  have key : Unset (HTTPClient_Send P cfg fuel T rh body n (some resp) flags)
      (HTTPClient_Send P cfg fuel T rh body n (some { resp with pHeaderParsingCallback := some .null }) flags)
      fun x y => x.1 = y.1 ∧ x.2.1 = y.2.1 ∧ ∃ r, x.2.2 = some r ∧ y.2.2 = some { r with pHeaderParsingCallback := some .null } ∧
        (r.headerCount = 0 ∨ r = withClock resp ∨ r = resp) := by
    have bad : ∀ (a : Status) (o : Option ReqHeaders), Unset (pure (a, o, some resp) : M PLog σ (Status × Option ReqHeaders × Option (Resp σ)))
        (pure (a, o, some { resp with pHeaderParsingCallback := some .null })) fun x y => x.1 = y.1 ∧ x.2.1 = y.2.1 ∧ ∃ r, x.2.2 = some r ∧
          y.2.2 = some { r with pHeaderParsingCallback := some .null } ∧ (r.headerCount = 0 ∨ r = withClock resp ∨ r = resp) :=
      fun a o => .pure ⟨rfl, rfl, resp, rfl, rfl, .inr (.inr rfl)⟩
    unfold HTTPClient_Send
    cases T with
    | none => exact bad _ _
    | some T =>
      dsimp only
      by_cases c1 : T.send.isNone = true
      · rw [if_pos c1, if_pos c1]; exact bad _ _
      rw [if_neg c1, if_neg c1]
      by_cases c2 : T.recv.isNone = true
      · rw [if_pos c2, if_pos c2]; exact bad _ _
      rw [if_neg c2, if_neg c2]
      cases rh with
      | none => exact bad _ _
      | some h =>
        dsimp only
        by_cases c3 : h.pBuffer.isNone = true
        · rw [if_pos c3, if_pos c3]; exact bad _ _
        rw [if_neg c3, if_neg c3]
        by_cases c4 : h.headersLen < MINIMUM_REQUEST_LINE_LENGTH
        · rw [if_pos c4, if_pos c4]; exact bad _ _
        rw [if_neg c4, if_neg c4]
        by_cases c5 : h.headersLen > h.bufferLen
        · rw [if_pos c5, if_pos c5]; exact bad _ _
        rw [if_neg c5, if_neg c5]
        by_cases c6 : resp.pBuffer.isNone = true
        · rw [if_pos c6, if_pos c6]; exact bad _ _
        rw [if_neg c6, if_neg c6]
        by_cases c7 : resp.bufferLen = 0
        · rw [if_pos c7, if_pos c7]; exact bad _ _
        rw [if_neg c7, if_neg c7]
        by_cases c8 : body.isNone ∧ n > 0
        · rw [if_pos c8, if_pos c8]; exact bad _ _
        rw [if_neg c8, if_neg c8]
        by_cases c9 : n > 2147483647
        · rw [if_pos c9, if_pos c9]; exact bad _ _
        rw [if_neg c9, if_neg c9]
        refine .same fun x => ?_
        obtain ⟨st, orh⟩ := x
        dsimp only
        by_cases cs : st = .success
        · rw [if_pos cs, if_pos cs]
          refine .bind (receive_unset (P := P) (cfg := cfg) (some T) orh (withClock resp) hc fuel) ?_
          rintro ⟨s1, r1⟩ ⟨s2, r2⟩ ⟨q1, q2, q3, q4⟩
          dsimp only at q1 q2 q3 q4 ⊢
          subst q1 q3
          exact .pure ⟨rfl, rfl, r1, rfl, rfl, q4.imp id .inl⟩
        · rw [if_neg cs, if_neg cs]
          exact .pure ⟨rfl, rfl, withClock resp, rfl, rfl, .inr (.inl rfl)⟩
  rcases key w with h | ⟨h1, h2⟩
  · exact .inl h
  · refine .inr ⟨h1.symm, fun st orh resp' e => ?_⟩
    rw [e] at h2
    rcases hy : (HTTPClient_Send P cfg fuel T rh body n (some { resp with pHeaderParsingCallback := some .null }) flags w).1 with ⟨a, b, c⟩ | f | _ <;>
      rw [hy] at h2 <;> simp only [SimRun] at h2
    obtain ⟨q1, q2, r, q3, q4, q5⟩ := h2
    cases q3
    subst q1 q2 q4
    exact ⟨rfl, q5⟩

/-- **C88 is false**, whatever the parser, the transport and the request: whenever the call would report a header count with pHeaderParsingCallback NULL, it calls
through NULL with a callback structure whose onHeaderCallback is NULL. -/
theorem C88_refuted {resp resp' : Resp σ} (hc : resp.pHeaderParsingCallback = none) (h0 : resp.headerCount = 0) {T : Option (Transport σ)}
    {rh orh : Option ReqHeaders} {fuel : Nat} {w w' : World PLog σ} {st : Status}
    (e : HTTPClient_Send P cfg fuel T rh body n (some resp) flags w = (.ok (st, orh, some resp'), w')) (hn : 0 < resp'.headerCount) :
    (HTTPClient_Send P cfg fuel T rh body n (some { resp with pHeaderParsingCallback := some .null }) flags w).1 = .fault .nullCall := by
  rcases C88_unset (P := P) (cfg := cfg) (body := body) (n := n) (flags := flags) hc T rh fuel w with h | ⟨_, h⟩
  · exact h
  · obtain ⟨_, h1 | rfl | rfl⟩ := h st orh resp' (by rw [e])
    · omega
    · change 0 < resp.headerCount at hn; omega
    · omega

/-- The header count a call reports. -/
def countOf (r : Run (Status × Option ReqHeaders × Option (Resp Script)) × World PLog Script) : Option Nat :=
  match r.1 with
  | .ok (.success, _, some q) => some q.headerCount
  | _ => none

/-- A response object without a callback structure. -/
def nResp : Resp Script := { exResp 200 0 with pHeaderParsingCallback := none, headerCount := 0 }
/-- The response of the example. -/
def nAnswer : Bytes := ascii "HTTP/1.1 200 OK\r\nContent-Length: 0\r\nServer: x\r\n\r\n"

/-- Without a callback structure an exchange reports two headers; with one whose function is NULL, the same exchange calls through NULL. The parameters
satisfy all the conditions of C88 but the one on that function. -/
example : countOf (HTTPClient_Send httpParser exCfg 50 (some xT) (some xReq) (some 2) 5 (some nResp) 0 ⟨(0, [nAnswer]), xMem, []⟩) = some 2 ∧
    (HTTPClient_Send httpParser exCfg 50 (some xT) (some xReq) (some 2) 5 (some { nResp with pHeaderParsingCallback := some .null }) 0
      ⟨(0, [nAnswer]), xMem, []⟩).1 = .fault .nullCall := by
  have h : countOf (HTTPClient_Send httpParser exCfg 50 (some xT) (some xReq) (some 2) 5 (some nResp) 0 ⟨(0, [nAnswer]), xMem, []⟩) = some 2 := by
    decide +kernel
  refine ⟨h, ?_⟩
  rcases e : HTTPClient_Send httpParser exCfg 50 (some xT) (some xReq) (some 2) 5 (some nResp) 0 ⟨(0, [nAnswer]), xMem, []⟩ with ⟨⟨st, orh, or⟩ | f | _, w'⟩ <;>
    rw [e] at h
  · cases st <;> cases or <;> simp [countOf] at h
    exact C88_refuted rfl rfl e (by omega)
  · simp [countOf] at h
  · simp [countOf] at h

/-- What is not NULL in the examples can be used: with any of the pointers NULL the call is safe, by C88_null_partial. -/
example : Usable true httpParser exCfg (some xT) (some xReq) (some 2) 5 (some nResp) xMem where
  parser := httpParser_ok
  send := by intro t s h1 h2; cases h1; cases h2; exact xSend_ok
  recv := by intro t r h1 h2; cases h1; cases h2; exact scriptRecv_ok
  req := by intro h rb h1 h2; cases h1; cases h2; exact ⟨by decide +kernel, by decide⟩
  resp := by intro r b h1 h2; cases h1; cases h2; exact ⟨by decide +kernel, by decide⟩
  body := by
    intro bb h; cases h
    exact ⟨by decide, fun h h1 => by cases h1; decide⟩

end CoreHttp.Props

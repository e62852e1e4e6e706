import Verif.Spec.Steps
import Verif.Props.Exchange

/-! # C70: exchanges made in steps -/

namespace CoreHttp.Props
open CoreHttp Spec Ref Machine
variable {π σ : Type} {cfg : Cfg} {T : Transport σ} {send : σ → Bytes → Int × σ} {recv : σ → Nat → Int × Bytes × σ} {rh : ReqHeaders}
  {rb b : Nat} {resp : Resp σ} {flags : UInt32} {n : Nat} {got rest : σ → Bytes}

/-- **C70, one piece.** With parameters that HTTPClient_Send accepts, calling it is the same as making the three calls: from every world, for every
parser, the same status, objects, memory, environment and trace. -/
theorem C70_send_is_three_calls (P : Parser) {t : Transport σ} {body : Option Nat} {rh : ReqHeaders} {resp : Resp σ}
    (h : ParamsOk (some t) (some rh) body n (some resp)) (fuel : Nat) (w : World PLog σ) :
    HTTPClient_Send P cfg fuel (some t) (some rh) body n (some resp) flags w =
      threeCalls P cfg fuel t rh body n flags (withClock resp) w := by
  obtain ⟨t', s, r, h1, hs, hr⟩ := h.transport
  cases h1
  obtain ⟨h', rb, h2, hb, hmin, hle⟩ := h.request
  cases h2
  obtain ⟨q, b, h3, hqb, hq⟩ := h.response
  cases h3
  have hbn := h.body
  have hbl := h.bodyLen
  unfold HTTPClient_Send
  simp only [hs, hr, hb, Option.isNone_some, Bool.false_eq_true, if_false]
  have h16 : MINIMUM_REQUEST_LINE_LENGTH = 16 := by decide
  rw [if_neg (by omega), if_neg (by omega), if_neg (by simp [hqb]), if_neg hq, if_neg (by rintro ⟨h5, h6⟩; cases body <;> simp_all), if_neg (by omega)]
  have hc := withClock_ne resp
  show (sendHttpRequest cfg fuel (some t) (withClock resp).getTime (some rh) body n flags >>= fun x =>
    if x.1 = Status.success then
      HTTPClient_ReceiveAndParseHttpResponse P cfg fuel (some t) (some (withClock resp)) x.2 >>= fun y => pure (y.1, x.2, some y.2)
    else pure (x.1, x.2, some (withClock resp))) w = _
  unfold sendHttpRequest threeCalls
  have a1 : (body.isSome || decide (n = 0)) = true := by
    cases hb : body with
    | none => simp [hbn hb]
    | some bb => simp
  rw [a1]
  generalize hq : withClock resp = q at hc ⊢
  obtain ⟨c, hclk⟩ : ∃ c, q.getTime = c := ⟨_, rfl⟩
  rw [hclk] at hc ⊢
  simp only [Option.isSome_some, M.bind_apply, mAssert_true]
  rcases HTTPClient_SendHttpHeaders cfg fuel (some t) c (some rh) n flags w with ⟨x, w1⟩
  cases x with
  | fault f => rfl
  | more => rfl
  | ok x =>
    obtain ⟨st, orh⟩ := x
    dsimp only
    by_cases hst : st = .success
    · subst hst
      simp only [if_true]
      cases body with
      | none => simp only [M.pure_apply, if_true, M.bind_apply]
      | some bb =>
        simp only [sendHttpBody, hs, M.bind_apply]
        rcases HTTPClient_SendHttpData cfg fuel (some t) c (some bb) n w1 with ⟨y, w2⟩
        cases y with
        | fault f => rfl
        | more => rfl
        | ok y => rfl
    · simp only [if_neg hst, M.pure_apply]

/-! ### Pieces -/

theorem store_self {m : Mem} {b : Nat} {d : Bytes} : (store m b d b).take d.length = d := by simp [store]
theorem store_len {m : Mem} {b : Nat} {d : Bytes} (h : d.length ≤ (m b).length) (i : Nat) : (store m b d i).length = (m i).length := by
  unfold store
  by_cases hi : i = b
  · subst hi; simp; omega
  · rw [if_neg hi]

/-- The caller's loop: a prefix of the pieces is accepted; everything if and only if the loop reports success; the request's block keeps its
contents and every block its length. -/
theorem sendPieces_spec (hT : T.send = some send) (hs : SendOk send) {clock : TimeFn σ} (hc : clock ≠ .null) (fuel : Nat) :
    ∀ (ps : List Piece) (w : World π σ), PiecesOk w.mem rb ps →
      ∃ r s' m' evs, sendPieces cfg fuel T clock ps w = (r, ⟨s', m', w.log ++ evs⟩) ∧
        (∀ e ∈ evs, e.isSending = true) ∧ accepted evs <+: piecesBytes ps ∧ (r = .ok .success → accepted evs = piecesBytes ps) ∧
        (r = .ok .success ∨ r = .ok .networkError ∨ r = .more) ∧ m' rb = w.mem rb ∧ ∀ i, (m' i).length = (w.mem i).length := by
  intro ps
  induction ps with
  | nil =>
    intro w _
    exact ⟨.ok .success, w.env, w.mem, [], by simp [sendPieces], by simp, by simp [accepted], fun _ => rfl, .inl rfl, rfl, fun _ => rfl⟩
  | cons p ps ih =>
    intro w hok
    obtain ⟨bb, d⟩ := p
    obtain ⟨hne, hlen⟩ := hok (bb, d) (by simp)
    dsimp only at hne hlen
    obtain ⟨r, s', t0, evs, e, tr⟩ := sendData_trace (cfg := cfg) (fuel := fuel) hT hs hc (b := bb) (len := d.length)
      (w := ⟨w.env, store w.mem bb d, w.log⟩) (by dsimp only; rw [store_len hlen]; exact hlen)
    dsimp only at e tr
    rw [store_self] at tr
    have hrb : store w.mem bb d rb = w.mem rb := by simp [store, Ne.symm hne]
    have hk : ∀ e ∈ Ev.time t0 :: evs, e.isSending = true := by
      intro e he
      rcases List.mem_cons.mp he with rfl | he
      · rfl
      · exact tr.kinds e he
    have hacc : accepted (Ev.time t0 :: evs) = accepted evs := rfl
    have hpb : piecesBytes ((bb, d) :: ps) = d ++ piecesBytes ps := by simp [piecesBytes]
    have hpre := tr.accepted_prefix
    unfold sendPieces
    simp only [M.bind_apply, M.world_apply, M.setMem_apply, e]
    rcases tr.outcome with rfl | rfl | rfl
    · have hall := hpre.2.mp rfl
      simp only [if_true]
      obtain ⟨r, s2, m2, evs2, e2, k2, p2, a2, o2, q2, l2⟩ := ih ⟨s', store w.mem bb d, w.log ++ .time t0 :: evs⟩ (by
        intro p hp
        obtain ⟨h1, h2⟩ := hok p (List.mem_cons_of_mem _ hp)
        exact ⟨h1, by dsimp only; rw [store_len hlen]; exact h2⟩)
      dsimp only at q2 l2
      refine ⟨r, s2, m2, (.time t0 :: evs) ++ evs2, by rw [e2]; simp, ?_, ?_, ?_, o2, q2.trans hrb, fun i => (l2 i).trans (store_len hlen i)⟩
      · intro e he
        rcases List.mem_append.mp he with he | he
        · exact hk e he
        · exact k2 e he
      · rw [accepted_append', hacc, hall, hpb]; exact (List.prefix_append_right_inj _).mpr p2
      · intro h; rw [accepted_append', hacc, hall, hpb, a2 h]
    · refine ⟨_, s', _, .time t0 :: evs, rfl, hk, ?_, ?_, .inr (.inl rfl), hrb, store_len hlen⟩
      · rw [hacc, hpb]; exact hpre.1.trans (List.prefix_append _ _)
      · intro h; cases h
    · refine ⟨_, s', _, .time t0 :: evs, rfl, hk, ?_, ?_, .inr (.inr rfl), hrb, store_len hlen⟩
      · rw [hacc, hpb]; exact hpre.1.trans (List.prefix_append _ _)
      · intro h; cases h

/-- What is needed for receiving after headers and pieces have been sent. -/
theorem recvPre_steps {P : Parser} {strict : Bool} {m : Mem} (hp : CallPre strict P cfg T send recv rh rb none 0 resp b m) (hc : resp.getTime ≠ .null) {m1 m2 : Mem} {rh' : ReqHeaders}
    (hfr : FrameBuf m m1 rb rh.bufferLen) (hb : rh'.pBuffer = some rb) (hbl : rh'.bufferLen = rh.bufferLen) (hle : rh'.headersLen ≤ rh'.bufferLen)
    (hB : headerBlock m1 rh' = wireHeaders (headerBlock m rh) n flags.toNat) (hlen : rh'.headersLen = (headerBlock m1 rh').length)
    (hl : ∀ i, (m2 i).length = (m1 i).length) : RecvPre strict P cfg T recv resp rh' b rb m2 where
  parser := hp.parser
  hasRecv := hp.hasRecv
  recvOk := hp.recvOk
  buf := hp.buf
  pos := hp.pos
  room := by
    rw [hl]
    have := hp.room
    by_cases h : b = rb
    · subst h; rw [hfr.2.1]; exact this
    · rw [hfr.1 b h]; exact this
  size := hp.size
  clock := hc
  callback := hp.callback
  reqBuf := hb
  reqLen := by
    rw [hlen, hB]
    unfold wireHeaders
    split
    · have hl14 : (ascii "Content-Length").length = 14 := by decide
      simp only [headerLine, crlf, List.length_append, hl14, List.length_cons, List.length_nil]; omega
    · have := hp.reqLen; have := hp.reqLe; have := hp.reqRoom
      simp only [headerBlock, hp.reqBuf, List.length_take]; omega
  reqRoom := by rw [hl, hfr.2.1]; have := hp.reqRoom; omega

/-- **C70, any number of pieces: what is sent.** For every transport, list of pieces, flags and declared body length: (1) if the headers with the
Content-Length line (when one is to be added) do not fit, HTTPInsufficientMemory is returned and nothing happens at all; (2) otherwise what the transport
accepts is a prefix of the headers followed by the pieces, and when anything is received, or the result is other than HTTPNetworkError, it is all of it,
accepted before anything is received. -/
theorem C70_pieces_sent {P : Parser} {strict : Bool} {w : World PLog σ} {ps : List Piece} (hp : CallPre strict P cfg T send recv rh rb none 0 resp b w.mem)
    (hc : resp.getTime ≠ .null) (hn : n ≤ 2147483647) (hps : PiecesOk w.mem rb ps) (fuel : Nat) :
    (rh.bufferLen < (wireHeaders (headerBlock w.mem rh) n flags.toNat).length ∧
      exchangeInSteps P cfg fuel T rh n flags ps resp w = (.ok (.insufficientMemory, some rh, some resp), w)) ∨
    ((wireHeaders (headerBlock w.mem rh) n flags.toNat).length ≤ rh.bufferLen ∧
      ∃ r w' evs, exchangeInSteps P cfg fuel T rh n flags ps resp w = (r, w') ∧ w'.log = w.log ++ evs ∧
        accepted evs <+: wireHeaders (headerBlock w.mem rh) n flags.toNat ++ piecesBytes ps ∧
        (∀ pre off len ret d post, evs = pre ++ .recv off len ret d :: post →
          accepted pre = wireHeaders (headerBlock w.mem rh) n flags.toNat ++ piecesBytes ps ∧ accepted post = []) ∧
        (∀ x, r = .ok x → x.1 ≠ .networkError → accepted evs = wireHeaders (headerBlock w.mem rh) n flags.toNat ++ piecesBytes ps)) := by
  have pre : SendPre cfg T send resp.getTime w.mem rh rb := ⟨hp.hasSend, hp.sendOk, hc, ⟨hp.reqBuf, hp.reqRoom⟩, hp.reqLe, hp.reqSize⟩
  rcases Nat.lt_or_ge rh.bufferLen (wireHeaders (headerBlock w.mem rh) n flags.toNat).length with hfit | hfit
  · refine .inl ⟨by omega, ?_⟩
    unfold exchangeInSteps
    rw [M.bind_apply, sendHeaders_nofit pre hn (by omega)]
    simp
  refine .inr ⟨hfit, ?_⟩
  obtain ⟨h', m1, hb, hbl, hle, hfr, hB, hlen, _, e⟩ := sendHeaders_fit (fuel := fuel) pre hn hfit
  generalize hhd : wireHeaders (headerBlock w.mem rh) n flags.toNat = hd at *
  have hml : h'.headersLen ≤ (m1 rb).length := by rw [hfr.2.1]; have := hp.reqRoom; omega
  obtain ⟨r, s', t0, evs, e2, tr⟩ := sendData_trace (cfg := cfg) (fuel := fuel) (w := ⟨w.env, m1, w.log⟩) pre.transport pre.sendOk
    pre.clockOk hml
  have hblk : (m1 rb).take h'.headersLen = hd := by rw [← hB]; simp [headerBlock, hb]
  dsimp only at e2 tr
  rw [hblk] at tr
  have hk : ∀ e ∈ Ev.time t0 :: evs, e.isSending = true := by
    intro e he
    rcases List.mem_cons.mp he with rfl | he
    · rfl
    · exact tr.kinds e he
  have norecv : ∀ {es : List (Ev PLog)}, (∀ e ∈ es, e.isSending = true) → ∀ pre off len ret d post, es = pre ++ .recv off len ret d :: post → False := by
    intro es hes pre off len ret d post h
    have := hes (.recv off len ret d) (by rw [h]; simp)
    simp [Ev.isSending] at this
  have hacc : accepted (Ev.time t0 :: evs) = accepted evs := rfl
  have hpre := tr.accepted_prefix
  unfold exchangeInSteps
  simp only [M.bind_apply, e, e2]
  rcases tr.outcome with rfl | rfl | rfl
  · have hall := hpre.2.mp rfl
    simp only [if_true, M.pure_apply, M.bind_apply]
    obtain ⟨r, s2, m2, evs2, e3, k2, p2, a2, o2, q2, l2⟩ := sendPieces_spec (cfg := cfg) (rb := rb) pre.transport pre.sendOk pre.clockOk fuel ps
      ⟨s', m1, w.log ++ .time t0 :: evs⟩ (by
        intro p hpm
        obtain ⟨h1, h2⟩ := hps p hpm
        exact ⟨h1, by dsimp only; rw [hfr.1 p.1 h1]; exact h2⟩)
    rw [e3]
    have hk2 : ∀ e ∈ (Ev.time t0 :: evs) ++ evs2, e.isSending = true := by
      intro e he
      rcases List.mem_append.mp he with he | he
      · exact hk e he
      · exact k2 e he
    have hpx : accepted ((Ev.time t0 :: evs) ++ evs2) <+: hd ++ piecesBytes ps := by
      rw [accepted_append', hacc, hall]; exact (List.prefix_append_right_inj _).mpr p2
    rcases o2 with rfl | rfl | rfl
    · simp only [if_true, M.bind_apply]
      have hr := recvPre_steps (n := n) (flags := flags) hp hc hfr hb hbl hle (hB.trans hhd.symm) hlen l2
      obtain ⟨q, w3, evs3, e4, hl4, hns, _, _⟩ := receive_no_send (w := ⟨s2, m2, w.log ++ Ev.time t0 :: evs ++ evs2⟩) hr fuel
      have hall2 : accepted ((Ev.time t0 :: evs) ++ evs2) = hd ++ piecesBytes ps := by rw [accepted_append', hacc, hall, a2 rfl]
      have h3 := (sends_nil hns).2
      have fin : ∀ r : Run (Status × Option ReqHeaders × Option (Resp σ)), ∃ r' w' evs', (r, w3) = (r', w') ∧ w'.log = w.log ++ evs' ∧
        accepted evs' <+: hd ++ piecesBytes ps ∧
        (∀ pre off len ret d post, evs' = pre ++ .recv off len ret d :: post → accepted pre = hd ++ piecesBytes ps ∧ accepted post = []) ∧
        (∀ x : Status × Option ReqHeaders × Option (Resp σ), r' = Run.ok x → x.1 ≠ .networkError → accepted evs' = hd ++ piecesBytes ps) := by
        intro r
        refine ⟨r, w3, ((Ev.time t0 :: evs) ++ evs2) ++ evs3, rfl, by rw [hl4]; simp, ?_, ?_, ?_⟩
        · rw [accepted_append', hall2, h3]; simp
        · intro pre off len ret d post h
          rcases List.append_eq_append_iff.mp h with ⟨z, h1, h2⟩ | ⟨z, h1, h2⟩
          · have hz := congrArg accepted h2
            rw [h3, accepted_append'] at hz
            obtain ⟨hz1, hz2⟩ := List.append_eq_nil_iff.mp hz.symm
            rw [h1, accepted_append', hall2, hz1]
            exact ⟨by simp, by simpa [accepted] using hz2⟩
          · cases z with
            | nil =>
              have hz := congrArg accepted h2
              rw [List.nil_append, h3] at hz
              rw [List.append_nil] at h1
              rw [← h1]
              exact ⟨hall2, by simpa [accepted] using hz⟩
            | cons y ys =>
              injection h2 with h4 h5
              exact absurd (hk2 (.recv off len ret d) (by rw [h1, h4]; simp)) (by simp [Ev.isSending])
        · intro _ _ _; rw [accepted_append', hall2, h3]; simp
      rw [e4]
      cases q with
      | ok x => exact fin _
      | fault f => exact fin _
      | more => exact fin _
    · refine ⟨_, _, (Ev.time t0 :: evs) ++ evs2, rfl, by simp, hpx, fun pre off len ret d post h => (norecv hk2 _ _ _ _ _ _ h).elim, ?_⟩
      intro x hx hne
      cases hx
      exact absurd rfl hne
    · exact ⟨_, _, (Ev.time t0 :: evs) ++ evs2, rfl, by simp, hpx, fun pre off len ret d post h => (norecv hk2 _ _ _ _ _ _ h).elim, fun x hx => by cases hx⟩
  · refine ⟨_, _, Ev.time t0 :: evs, rfl, rfl, hpre.1.trans (List.prefix_append _ _), fun pre off len ret d post h => (norecv hk _ _ _ _ _ _ h).elim, ?_⟩
    intro x hx hne
    cases hx
    exact absurd rfl hne
  · exact ⟨_, _, Ev.time t0 :: evs, rfl, rfl, hpre.1.trans (List.prefix_append _ _), fun pre off len ret d post h => (norecv hk _ _ _ _ _ _ h).elim, fun x hx => by cases hx⟩

theorem sendPieces_keeps {I : σ → List (Ev PLog) → Prop} {clock : TimeFn σ} {cb} (E : EnvInv I send recv clock cb) (hT : T.send = some send) (fuel : Nat) :
    ∀ ps : List Piece, Keeps I (sendPieces cfg fuel T clock ps) fun _ => True := by
  intro ps
  induction ps with
  | nil => exact .pure trivial
  | cons p ps ih =>
    unfold sendPieces
    refine .bind .world' fun w _ => .bind (.setMem _) fun _ _ => .bind (sendData_keeps E cfg hT _ _ fuel) fun st _ => ?_
    split
    · exact ih
    · exact .pure trivial

theorem sendHeaders_keeps {I : σ → List (Ev PLog) → Prop} {clock : TimeFn σ} {cb} (E : EnvInv I send recv clock cb) (hT : T.send = some send) (fuel : Nat) :
    Keeps I (HTTPClient_SendHttpHeaders cfg fuel (some T) clock (some rh) n flags) fun _ => True := by
  unfold HTTPClient_SendHttpHeaders
  simp only [hT]
  refine .bind .world' fun w _ => .bind (Q := fun _ => True) ?_ fun r _ => .bind (.setMem _) fun _ _ => ?_
  · split
    · exact .ofRun _
    · exact .pure trivial
  · split
    · exact .bind (sendData_keeps E cfg hT _ _ fuel) fun _ _ => .pure trivial
    · exact .pure trivial

theorem sendPieces_all (hT : T.send = some send) (hs : SendOk send) (hpos : ∀ s d, d ≠ [] → 0 < (send s d).1) {clock : TimeFn σ} (hc : clock ≠ .null)
    {fuel : Nat} : ∀ (ps : List Piece) (w : World PLog σ), PiecesOk w.mem rb ps → (∀ p ∈ ps, p.2.length ≤ fuel) →
      (sendPieces cfg fuel T clock ps w).1 = .ok .success := by
  intro ps
  induction ps with
  | nil => intro w _ _; rfl
  | cons p ps ih =>
    intro w hok hf
    obtain ⟨hne, hlen⟩ := hok p (by simp)
    have hl : p.2.length ≤ (store w.mem p.1 p.2 p.1).length := by rw [store_len hlen]; exact hlen
    have h1 := sendData_all (cfg := cfg) (w := ⟨w.env, store w.mem p.1 p.2, w.log⟩) hT hs hpos hc hl (hf p (by simp))
    obtain ⟨r, s', t0, evs, e, tr⟩ := sendData_trace (cfg := cfg) (fuel := fuel) (w := ⟨w.env, store w.mem p.1 p.2, w.log⟩) hT hs hc hl
    rw [e] at h1
    dsimp only at h1 e
    subst h1
    unfold sendPieces
    simp only [M.bind_apply, M.world_apply, M.setMem_apply, e, if_true]
    refine ih _ ?_ fun p' hp' => hf p' (List.mem_cons_of_mem _ hp')
    intro p' hp'
    obtain ⟨h3, h4⟩ := hok p' (List.mem_cons_of_mem _ hp')
    exact ⟨h3, by dsimp only; rw [store_len hlen]; exact h4⟩

/-- **C70, any number of pieces, with a cooperative peer.** For every request whose headers fit in their buffer, every body in any number of pieces of any
size (kept in any buffers but the request's; the response buffer is allowed), every well-formed response that fits in its buffer, and every peer that
answers this request with this response, in pieces of any size: the exchange made in steps ends with HTTPSuccess, the peer has got exactly the headers
and the pieces in order, and everything is reported as the peer sent it. -/
theorem C70_exchange {w : World PLog σ} {head : Bool} {r : Response} {ps : List Piece}
    (hp : CallPre true httpParser cfg T send recv rh rb none 0 resp b w.mem) (hc : resp.getTime ≠ .null) (hn : n ≤ 2147483647)
    (hps : PiecesOk w.mem rb ps) (ok : r.Ok head) (hreq : ReqIs head (headerBlock w.mem rh)) (hflag : ¬ headersOnly resp.respOptionFlags)
    (hfit : r.bytes.length ≤ resp.bufferLen) (hfit' : (wireHeaders (headerBlock w.mem rh) n flags.toNat).length ≤ rh.bufferLen)
    (hP : Peer (wireHeaders (headerBlock w.mem rh) n flags.toNat ++ piecesBytes ps) r.bytes got rest send recv resp) (hgot : got w.env = [])
    {fuel : Nat} (hf1 : rh.bufferLen ≤ fuel) (hf2 : ∀ p ∈ ps, p.2.length ≤ fuel) (hf3 : resp.bufferLen < fuel) :
    ∃ rh' resp' w' evs, exchangeInSteps httpParser cfg fuel T rh n flags ps resp w = (.ok (.success, some rh', some resp'), w') ∧
      w'.log = w.log ++ evs ∧ got w'.env = wireHeaders (headerBlock w.mem rh) n flags.toNat ++ piecesBytes ps ∧ rest w'.env = [] ∧
      accepted evs = wireHeaders (headerBlock w.mem rh) n flags.toNat ++ piecesBytes ps ∧ received evs = r.bytes ∧
      Got cfg r resp.pHeaderParsingCallback.isSome evs w'.mem resp' := by
  have hblk16 : 16 ≤ (headerBlock w.mem rh).length := by
    have h1 := hp.reqLen; have h2 := hp.reqRoom; have h3 := hp.reqLe
    unfold headerBlock; rw [hp.reqBuf]; simp only [List.length_take]; omega
  have hwr : wireHeaders (headerBlock w.mem rh) n flags.toNat ≠ [] := by
    intro h
    have h1 := congrArg List.length (wireHeaders_take hblk16 n flags.toNat)
    rw [h] at h1
    simp at h1
    omega
  have hreq' := reqIs_wire hblk16 n flags.toNat hreq
  have pre : SendPre cfg T send resp.getTime w.mem rh rb := ⟨hp.hasSend, hp.sendOk, hc, ⟨hp.reqBuf, hp.reqRoom⟩, hp.reqLe, hp.reqSize⟩
  have k1 := sendHeaders_keeps (cfg := cfg) (rh := rh) (n := n) (flags := flags) (sending_inv hP w.log) hp.hasSend fuel w
    ⟨[], by simp, by simpa [accepted] using hgot, fun h => absurd (List.append_eq_nil_iff.mp h.symm).1 hwr⟩
  obtain ⟨h', m1, hb, hbl, hle, hfr, hB, hlen, _, e⟩ := sendHeaders_fit (fuel := fuel) pre hn hfit'
  generalize hhd : wireHeaders (headerBlock w.mem rh) n flags.toNat = hd at *
  have hml : h'.headersLen ≤ (m1 rb).length := by rw [hfr.2.1]; have := hp.reqRoom; omega
  have hd1 := sendData_all (cfg := cfg) (fuel := fuel) (w := ⟨w.env, m1, w.log⟩) hp.hasSend hp.sendOk hP.accepts hc hml (by omega)
  obtain ⟨r1, s', t0, evs, e2, tr⟩ := sendData_trace (cfg := cfg) (fuel := fuel) (w := ⟨w.env, m1, w.log⟩) pre.transport pre.sendOk
    pre.clockOk hml
  have hblk : (m1 rb).take h'.headersLen = hd := by rw [← hB]; simp [headerBlock, hb]
  dsimp only at e2 tr
  rw [hblk] at tr
  rw [e2] at hd1
  dsimp only at hd1
  subst hd1
  have hall := tr.accepted_prefix.2.mp rfl
  have hk : ∀ e ∈ Ev.time t0 :: evs, e.isSending = true := by
    intro e he
    rcases List.mem_cons.mp he with rfl | he
    · rfl
    · exact tr.kinds e he
  have hps' : PiecesOk m1 rb ps := fun p hpm => ⟨(hps p hpm).1, by rw [hfr.1 p.1 (hps p hpm).1]; exact (hps p hpm).2⟩
  rw [e] at k1
  simp only [M.bind_apply, e2, M.pure_apply] at k1
  obtain ⟨r2, s2, m2, evs2, e3, hk2, _, a2, _, q2, l2⟩ := sendPieces_spec (cfg := cfg) (rb := rb) pre.transport pre.sendOk pre.clockOk fuel ps
    ⟨s', m1, w.log ++ .time t0 :: evs⟩ hps'
  have hd2 := sendPieces_all (cfg := cfg) (rb := rb) hp.hasSend hp.sendOk hP.accepts hc ps ⟨s', m1, w.log ++ .time t0 :: evs⟩ hps' hf2
  have k2 := (sendPieces_keeps (cfg := cfg) (sending_inv hP w.log) hp.hasSend fuel ps ⟨s', m1, w.log ++ .time t0 :: evs⟩ k1.1).1
  rw [e3] at hd2 k2
  dsimp only at hd2 k2 q2 l2
  subst hd2
  have hall2 : accepted ((Ev.time t0 :: evs) ++ evs2) = hd ++ piecesBytes ps := by
    rw [accepted_append', a2 rfl]
    show accepted evs ++ _ = _
    rw [hall]
  obtain ⟨evs', hl', g1, g2⟩ := k2
  obtain rfl : (Ev.time t0 :: evs) ++ evs2 = evs' := List.append_cancel_left (by rw [← hl']; simp)
  have hksend : ∀ e ∈ (Ev.time t0 :: evs) ++ evs2, e.isSending = true := by
    intro e he
    rcases List.mem_append.mp he with he | he
    · exact hk e he
    · exact hk2 e he
  obtain ⟨_, s3, _, s4⟩ := sending_kinds hksend
  have hr := recvPre_steps (n := n) (flags := flags) hp hc hfr hb hbl hle (hB.trans hhd.symm) hlen l2
  have hB2 : headerBlock m2 h' = hd := by
    rw [← hB]; unfold headerBlock; rw [hb]; dsimp only; rw [q2]
  obtain ⟨resp', w', evs3, e4, hl4, b1, b2, b3, b4⟩ := C58_peer_receive (w := ⟨s2, m2, w.log ++ Ev.time t0 :: evs ++ evs2⟩) (r := r) (head := head) hr ok
    (by dsimp only; rw [hB2]; exact hreq') hflag hfit hP (g1.trans hall2) (g2 hall2) hf3
  obtain ⟨_, _, evs4, e5, hl5, hns, _, _⟩ := receive_no_send (w := ⟨s2, m2, w.log ++ Ev.time t0 :: evs ++ evs2⟩) hr fuel
  rw [e4] at e5; cases e5
  obtain rfl : evs3 = evs4 := List.append_cancel_left (hl4.symm.trans hl5)
  unfold exchangeInSteps
  simp only [M.bind_apply, e, e2, M.pure_apply, if_true, e3, e4]
  refine ⟨h', resp', w', ((Ev.time t0 :: evs) ++ evs2) ++ evs3, rfl, by rw [hl4]; simp, b3, b2, ?_, ?_, ?_⟩
  · rw [accepted_append', hall2, (sends_nil hns).2, List.append_nil]
  · rw [received_append, s4]; exact b1
  · exact { b4 with reported := by rw [reported_append, s3]; exact b4.reported }

/-! ### Non-vacuity -/

/-- A body of 12 bytes in three pieces: the first in block 2, the second in the response buffer, the third in block 2 again. -/
def exPieces : List Piece := [(2, ascii "hello"), (1, ascii " you"), (2, ascii "...")]

example : piecesBytes exPieces = ascii "hello you..." := by decide +kernel

/-- All hypotheses of C70 hold for this body and a chunked response. -/
example (t : Nat) : ∃ rh' resp' w' evs,
    exchangeInSteps httpParser exCfg 300 (peerT (ascii "PUT / HTTP/1.1\r\nContent-Length: 12\r\n\r\nhello you...") exResponse.bytes) xReq 12 0 exPieces
      (peerResp 1) ⟨(t, [], []), xMem, []⟩ = (.ok (.success, some rh', some resp'), w') ∧ w'.log = evs ∧
    w'.env.2 = (ascii "PUT / HTTP/1.1\r\nContent-Length: 12\r\n\r\nhello you...", []) ∧ received evs = exResponse.bytes ∧
    Got exCfg exResponse true evs w'.mem resp' ∧ bodyBytes w'.mem resp' = ascii "abcdefghijklmn" ++ [0] := by
  have hw : wireHeaders (headerBlock xMem xReq) 12 (UInt32.toNat 0) ++ piecesBytes exPieces =
      ascii "PUT / HTTP/1.1\r\nContent-Length: 12\r\n\r\nhello you..." := by decide +kernel
  have hpr : CallPre true httpParser exCfg (peerT (ascii "PUT / HTTP/1.1\r\nContent-Length: 12\r\n\r\nhello you...") exResponse.bytes)
      (peerSend (ascii "PUT / HTTP/1.1\r\nContent-Length: 12\r\n\r\nhello you...") exResponse.bytes) peerRecv xReq 0 none 0 (peerResp 1) 1 xMem :=
    { peerCallPre _ _ 1 (.inr rfl) with
      bodyNone := fun _ => rfl
      bodyRoom := by intro bb h; cases h
      bodyMax := by decide }
  obtain ⟨rh', resp', w', evs, e, hl, h1, h2, _, h4, h5⟩ := C70_exchange (w := (⟨(t, [], []), xMem, []⟩ : World PLog PeerEnv))
    (n := 12) (ps := exPieces) (flags := 0) (fuel := 300) hpr (by simp [peerResp]) (by decide)
    (by
      intro p hp
      simp only [exPieces, List.mem_cons, List.not_mem_nil, or_false] at hp
      rcases hp with rfl | rfl | rfl
      · exact ⟨by decide, show (ascii "hello").length ≤ (xMem 2).length by decide +kernel⟩
      · exact ⟨by decide, show (ascii " you").length ≤ (xMem 1).length by decide +kernel⟩
      · exact ⟨by decide, show (ascii "...").length ≤ (xMem 2).length by decide +kernel⟩) exResponse_ok (show ¬ ascii "HEAD" <+: headerBlock xMem xReq by decide +kernel)
    (show ¬ ((0 : UInt32).toNat % 2 = 1) by decide) (show exResponse.bytes.length ≤ 200 by decide +kernel)
    (show (wireHeaders (headerBlock xMem xReq) 12 (UInt32.toNat 0)).length ≤ 60 by decide +kernel)
    (by dsimp only; rw [hw]; exact peer_ok _ _ 1) rfl (by decide) (by decide +kernel) (show 200 < 300 by decide)
  dsimp only at h1
  rw [hw] at h1
  exact ⟨rh', resp', w', evs, e, by simpa using hl, Prod.ext h1 h2, h4, h5, by rw [h5.body]; decide +kernel⟩

end CoreHttp.Props

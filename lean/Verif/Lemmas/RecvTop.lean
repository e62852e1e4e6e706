import Verif.Lemmas.RecvLoop

/-! # HTTPClient_ReceiveAndParseHttpResponse as a whole -/

namespace CoreHttp
open Spec
variable {σ : Type} {P : Parser} {cfg : Cfg} {strict : Bool} {T : Transport σ} {recv : σ → Nat → Int × Bytes × σ} {resp : Resp σ}
  {rh : ReqHeaders} {b rb : Nat}

theorem szSub_eq {cfg : Cfg} {a c : Nat} (h : c ≤ a) (ha : a < 2 ^ cfg.sizeBits) : szSub cfg a c = a - c := by
  unfold szSub
  rw [Nat.mod_eq_of_lt (by omega : c < 2 ^ cfg.sizeBits), show a + (2 ^ cfg.sizeBits - c) = (a - c) + 2 ^ cfg.sizeBits by omega,
    Nat.add_mod_right, Nat.mod_eq_of_lt (by omega)]

/-- Does the request buffer begin with "HEAD"? -/
def startsHead (m : Mem) (rb : Nat) : Bool := decide ((m rb).take 4 = ascii "HEAD")

/-- The status when receiving ended without error. -/
def finalStatus (state : PState) (full headersOnly : Bool) : Status :=
  match state with
  | .none => .noResponse
  | .incomplete => if headersOnly then .success else if full then .insufficientMemory else .partialResponse
  | .complete => .success

theorem finalStatus_cases (state : PState) (full headersOnly : Bool) :
    finalStatus state full headersOnly = .success ∨ finalStatus state full headersOnly = .noResponse ∨
    finalStatus state full headersOnly = .insufficientMemory ∨ finalStatus state full headersOnly = .partialResponse := by
  cases state <;> cases full <;> cases headersOnly <;> simp [finalStatus]

/-- What is returned for the loop status `lst` and the state `h` at the end of the loop. -/
def Finished {S : Type} (lst : Status) (total : Nat) (h : RS S σ) (st : Status) (resp' : Resp σ) : Prop :=
  (lst = .parserPaused ∧ st = .success ∧ ∃ cur, h.ctx.cur = some cur ∧ cur ≤ total ∧
      resp' = { h.resp with pBody := some cur, bodyLen := total - cur }) ∨
  (lst = .success ∧ resp' = h.resp ∧
      st = finalStatus h.ctx.state (decide (total = h.resp.bufferLen)) (decide (h.resp.respOptionFlags &&& DO_NOT_PARSE_BODY_FLAG ≠ 0))) ∨
  (lst ≠ .parserPaused ∧ lst ≠ .success ∧ resp' = h.resp ∧ st = lst)

theorem finishReceive_spec {m0 : Mem} {log0 : List (Ev PLog)} {head : Bool} {lst : Status} {total : Nat} {evs : List (Ev PLog)} {h : RS P.St σ}
    {w : World PLog σ} (hf : Final P cfg strict b resp head m0 log0 lst total evs h w) :
    ∃ st resp', finishReceive cfg lst total h w = (.ok (st, resp'), w) ∧ Finished lst total h st resp' := by
  obtain ⟨ph, base, lo, ht, hp1, hp2⟩ := hf.tinv
  have hbuf : h.resp.bufferLen = resp.bufferLen := by rw [← bindResponse_bufferLen]; exact ht.core.bufLen
  have hfits := ht.core.fits
  have hlo := ht.core.lo_le
  have hsz := ht.core.size
  have htot := hf.total
  by_cases h1 : lst = .parserPaused
  · obtain ⟨hbd, hcur⟩ := hp2 h1
    have hpa := ht.pausedAt (hp1.mp h1)
    rw [bindResponse_bound hbd] at ht
    have hfl : h.resp.respOptionFlags &&& DO_NOT_PARSE_BODY_FLAG ≠ 0 := by rw [ht.core.opt]; exact hpa.1
    have hst : h.ctx.state = .incomplete := by rw [ht.core.state, ht.prog, hp1.mp h1]; rfl
    have hsub : szSub cfg total lo = total - lo := szSub_eq (by omega) (by omega)
    refine ⟨.success, { h.resp with pBody := some lo, bodyLen := total - lo }, ?_, .inl ⟨h1, rfl, lo, hcur, by omega, rfl⟩⟩
    unfold finishReceive
    simp only [h1, hfl, hcur, ne_eq, not_false_eq_true, and_self, if_true, M.bind_apply, M.pure_apply, getFinalResponseStatus, hst, if_false, hsub]
    rw [decide_eq_true (by omega)]
    rfl
  · by_cases h2 : lst = .success
    · refine ⟨_, h.resp, ?_, .inr (.inl ⟨h2, rfl, rfl⟩)⟩
      subst h2
      unfold finishReceive getFinalResponseStatus
      simp only [reduceCtorEq, false_and, if_false, M.bind_apply, M.pure_apply, if_true]
      rw [decide_eq_true (by omega)]
      simp only [mAssert_true]
      congr 3
      unfold finalStatus
      cases h.ctx.state <;> simp
    · refine ⟨lst, h.resp, ?_, .inr (.inr ⟨h1, h2, rfl, rfl⟩)⟩
      unfold finishReceive
      simp [h1, h2]

/-- Up to the loop. -/
theorem receive_start {w : World PLog σ} (hp : RecvPre strict P cfg T recv resp rh b rb w.mem) (fuel : Nat) {t0 : UInt32} {s0 : σ}
    (ht0 : readClock (π := PLog) resp.getTime w = (.ok t0, ⟨s0, w.mem, w.log ++ [.time t0]⟩)) :
    HTTPClient_ReceiveAndParseHttpResponse P cfg fuel (some T) (some resp) (some rh) w =
      (recvLoop P cfg recv (retryTimeout resp.getTime cfg.recvTimeoutMs) b fuel 0 t0
        ⟨resp, ⟨P.init, .none, false, startsHead w.mem rb, none, none, 0, none, 0⟩⟩ >>= fun x => finishReceive cfg x.1 x.2.1 x.2.2)
        ⟨s0, w.mem, w.log ++ [.time t0]⟩ := by
  have hmem : memRead (w.mem rb) 0 METHOD_HEAD.length = .ok ((w.mem rb).take 4) := by
    have h4 : METHOD_HEAD.length = 4 := by decide
    have h1 := hp.reqLen
    have h2 := hp.reqRoom
    rw [memRead_ok (by omega), h4]; rfl
  have hA : (mAssert 1005 (decide (MINIMUM_REQUEST_LINE_LENGTH ≤ rh.headersLen)) : M PLog σ Unit) = mAssert 1005 true := by
    rw [decide_eq_true (show MINIMUM_REQUEST_LINE_LENGTH ≤ rh.headersLen from hp.reqLen)]
  unfold HTTPClient_ReceiveAndParseHttpResponse
  simp only [hp.hasRecv, hp.buf, initializeParsingContext, hp.reqBuf, M.bind_apply, hA, mAssert_true, M.world_apply, M.ofRun_apply, hmem,
    M.pure_apply, ht0]
  rfl

/-- The state when the loop begins. -/
theorem receive_ready {w : World PLog σ} (hp : RecvPre strict P cfg T recv resp rh b rb w.mem) {Inv : P.St → Phase → Nat → Nat → Prop}
    (hinit : Inv P.init .idle 0 0) (t0 : UInt32) (s0 : σ) :
    Ready P Inv cfg strict b resp (startsHead w.mem rb) w.mem w.log .idle 0 [.time t0]
      ⟨resp, ⟨P.init, .none, false, startsHead w.mem rb, none, none, 0, none, 0⟩⟩ ⟨s0, w.mem, w.log ++ [.time t0]⟩ := {
  tinv := {
    core := {
      bufLen := rfl
      cb := rfl
      cbOk := hp.callback
      gt := rfl
      opt := rfl
      pbuf := rfl
      head := rfl
      bound := rfl
      room := hp.room
      size := hp.size
      fits := Nat.zero_le _
      lo_le := Nat.zero_le _
      base_le := Nat.zero_le _
      cur := ⟨0, rfl, Nat.le_refl _, Nat.le_refl _, fun p h => by cases h⟩
      hlen0 := fun _ => rfl
      count := Nat.le_refl _
      ptrs := trivial
      bndF := fun f h => by cases h
      bndV := fun f h => by cases h
      fieldSeen := fun h => absurd rfl h
      state := rfl
      code := rfl
      hcount := rfl
      flags := (by decide : (0 : UInt32) = connFlags false false)
      clen := rfl
      ahc := rfl
      pend := rfl
      bodyPtr := rfl
      body := .inl ⟨rfl, rfl, rfl⟩
      agree := fun i h => absurd h (Nat.not_lt_zero _)
      opted := fun _ => ⟨.inl trivial, rfl⟩
      begun := fun h => absurd rfl h
      done := fun h => by cases h
      one := fun _ => ⟨fun _ => rfl, fun p q e h => by cases h⟩
      hend := fun _ => ⟨fun _ => rfl, fun n h => by cases h⟩ }
    log := rfl
    frame := ⟨fun _ _ => rfl, rfl, rfl⟩
    each := (EachEv.nil (π := PLog)).snoc (evs := []) trivial
    rep := fun _ => by simp [reported, obsOf, view, View.empty]
    pausedAt := fun h => by cases h
    prog := rfl
    noHc := fun _ _ => rfl
    headNb := fun _ => ⟨⟨by simp, by simp, by simp⟩, by simp [obsOf]⟩
    x := ⟨rfl, rfl, fun _ => rfl, Nat.le_refl _, fun h => h.elim⟩
    loc := ⟨⟨rfl, rfl⟩, (by simp [reportedAt, valuePieces, pieces, obsOf]), (by simp [reported, lens, obsOf, view, View.empty]),
      fun _ _ => ⟨rfl, fun _ => ⟨rfl, rfl⟩, fun h => by cases h⟩⟩ }
  inv := hinit
  lo_le := Nat.zero_le _
  live := fun h => by cases h
  parsedAll := rfl
  fed := rfl
  fresh := fun _ => ⟨rfl, rfl⟩
  noEof := fun er ep h => by simp at h }

/-- Everything about a call of HTTPClient_ReceiveAndParseHttpResponse. -/
theorem receive_spec' {w : World PLog σ} (hp : RecvPre strict P cfg T recv resp rh b rb w.mem) (fuel : Nat) :
    ∃ r w' t0 s0 tr, readClock (π := PLog) resp.getTime w = (.ok t0, ⟨s0, w.mem, w.log ++ [.time t0]⟩) ∧
      HTTPClient_ReceiveAndParseHttpResponse P cfg fuel (some T) (some resp) (some rh) w = (r, w') ∧
      w'.log = w.log ++ .time t0 :: tr ∧ EachEv (EvGood resp.bufferLen) (.time t0 :: tr) ∧ FrameBuf w.mem w'.mem b resp.bufferLen ∧
      ((r = .more ∧ RecvTrace (retryTimeout resp.getTime cfg.recvTimeoutMs) resp.bufferLen [.time t0] t0 tr none) ∨
       ∃ lst total h st resp', r = .ok (st, resp') ∧
         RecvTrace (retryTimeout resp.getTime cfg.recvTimeoutMs) resp.bufferLen [.time t0] t0 tr (some lst) ∧
         Final P cfg strict b resp (startsHead w.mem rb) w.mem w.log lst total (.time t0 :: tr) h w' ∧ Finished lst total h st resp' ∧
         recvLoop P cfg recv (retryTimeout resp.getTime cfg.recvTimeoutMs) b fuel 0 t0
           ⟨resp, ⟨P.init, .none, false, startsHead w.mem rb, none, none, 0, none, 0⟩⟩ ⟨s0, w.mem, w.log ++ [.time t0]⟩ = (.ok (lst, total, h), w') ∧
         finishReceive cfg lst total h w' = (.ok (st, resp'), w')) := by
  obtain ⟨Inv, hinit, hP⟩ := hp.parser
  obtain ⟨t0, s0, ht0⟩ := readClock_ok hp.clock w
  have hstart := receive_start hp fuel ht0
  have hready := receive_ready hp hinit t0 s0
  obtain ⟨r, w', tr, h1, h2, h3, h4, h5⟩ := recvLoop_spec (T := retryTimeout resp.getTime cfg.recvTimeoutMs) hP hp.recvOk hp.clock fuel t0
    .idle 0 [.time t0] _ _ hready hp.pos (by simp [msgState, view, obsOf, View.empty])
  have h1' : recvLoop P cfg recv (retryTimeout resp.getTime cfg.recvTimeoutMs) b fuel 0 t0
        ⟨resp, ⟨P.init, .none, false, startsHead w.mem rb, none, none, 0, none, 0⟩⟩ ⟨s0, w.mem, w.log ++ [.time t0]⟩ = (r, w') := h1
  rw [hstart]
  simp only [M.bind_apply, h1']
  rcases h5 with ⟨rfl, h5⟩ | ⟨lst, total, h, rfl, h5, h6⟩
  · exact ⟨_, _, t0, s0, tr, ht0, rfl, h2, h3, h4, .inl ⟨rfl, h5⟩⟩
  · obtain ⟨st, resp', e1, e2⟩ := finishReceive_spec h6
    dsimp only
    rw [e1]
    exact ⟨_, _, t0, s0, tr, ht0, rfl, h2, h3, h4, .inr ⟨lst, total, h, st, resp', rfl, h5, h6, e2, h1', e1⟩⟩

/-- Everything about a call, without the intermediate states. -/
theorem receive_spec {w : World PLog σ} (hp : RecvPre strict P cfg T recv resp rh b rb w.mem) (fuel : Nat) :
    ∃ r w' t0 tr, HTTPClient_ReceiveAndParseHttpResponse P cfg fuel (some T) (some resp) (some rh) w = (r, w') ∧
      w'.log = w.log ++ .time t0 :: tr ∧ EachEv (EvGood resp.bufferLen) (.time t0 :: tr) ∧ FrameBuf w.mem w'.mem b resp.bufferLen ∧
      ((r = .more ∧ RecvTrace (retryTimeout resp.getTime cfg.recvTimeoutMs) resp.bufferLen [.time t0] t0 tr none) ∨
       ∃ lst total h st resp', r = .ok (st, resp') ∧
         RecvTrace (retryTimeout resp.getTime cfg.recvTimeoutMs) resp.bufferLen [.time t0] t0 tr (some lst) ∧
         Final P cfg strict b resp (startsHead w.mem rb) w.mem w.log lst total (.time t0 :: tr) h w' ∧ Finished lst total h st resp') := by
  obtain ⟨r, w', t0, s0, tr, _, h2, h3, h4, h5, h6⟩ := receive_spec' hp fuel
  refine ⟨r, w', t0, tr, h2, h3, h4, h5, ?_⟩
  rcases h6 with h6 | ⟨lst, total, h, st, resp', q1, q2, q3, q4, _⟩
  · exact .inl h6
  · exact .inr ⟨lst, total, h, st, resp', q1, q2, q3, q4⟩

/-- Whenever the receive function is called, the parser has been fed everything received before, without error. -/
theorem receive_fedAt {w : World PLog σ} (hp : RecvPre strict P cfg T recv resp rh b rb w.mem) (fuel : Nat) :
    ∃ r w' t0 tr, HTTPClient_ReceiveAndParseHttpResponse P cfg fuel (some T) (some resp) (some rh) w = (r, w') ∧ w'.log = w.log ++ .time t0 :: tr ∧
      FedAt P (policy resp.respOptionFlags (startsHead w.mem rb)) [.time t0] tr := by
  obtain ⟨Inv, hinit, hP⟩ := hp.parser
  obtain ⟨t0, s0, ht0⟩ := readClock_ok hp.clock w
  have hstart := receive_start hp fuel ht0
  have hready := receive_ready hp hinit t0 s0
  obtain ⟨r, w', tr, h1, h2, h3, h4, hfa, h5⟩ := recvLoop_spec_fed (T := retryTimeout resp.getTime cfg.recvTimeoutMs) hP hp.recvOk hp.clock fuel t0
    .idle 0 [.time t0] _ _ hready hp.pos (by simp [msgState, view, obsOf, View.empty])
  have h1' : recvLoop P cfg recv (retryTimeout resp.getTime cfg.recvTimeoutMs) b fuel 0 t0
        ⟨resp, ⟨P.init, .none, false, startsHead w.mem rb, none, none, 0, none, 0⟩⟩ ⟨s0, w.mem, w.log ++ [.time t0]⟩ = (r, w') := h1
  rw [hstart]
  simp only [M.bind_apply, h1']
  rcases h5 with ⟨rfl, h5⟩ | ⟨lst, total, h, rfl, h5, h6⟩
  · exact ⟨_, _, t0, tr, rfl, h2, hfa⟩
  · obtain ⟨st, resp', e1, e2⟩ := finishReceive_spec h6
    dsimp only
    rw [e1]
    exact ⟨_, _, t0, tr, rfl, h2, hfa⟩

/-- What a returning call has done: either it failed before the parser was ever called, and the response object is untouched; or the invariant
holds of what is returned. -/
theorem returned {m0 : Mem} {log0 : List (Ev PLog)} {head : Bool} {lst st : Status} {total : Nat} {evs : List (Ev PLog)} {h : RS P.St σ}
    {w : World PLog σ} {resp' : Resp σ} (hf : Final P cfg strict b resp head m0 log0 lst total evs h w) (hs : Finished lst total h st resp') :
    (st = .networkError ∧ lst = .networkError ∧ resp' = resp ∧ obsOf evs = []) ∨
    ∃ ph base lo, TInv cfg strict b resp head m0 log0 ph base lo evs h w ∧ (lst = .parserPaused ↔ ph = .paused) ∧
      (lst = .parserPaused → h.ctx.cur = some lo) ∧
      resp' = (if lst = .parserPaused then { h.resp with pBody := some lo, bodyLen := (received evs).length - lo } else h.resp) ∧
      st = (if lst = .parserPaused then .success else if lst = .success then
        finalStatus (msgState evs) (decide ((received evs).length = resp.bufferLen))
          (decide (resp.respOptionFlags &&& DO_NOT_PARSE_BODY_FLAG ≠ 0)) else lst) := by
  cases hb : h.ctx.bound with
  | false =>
    obtain ⟨h1, h2, h3⟩ := hf.fresh hb
    rcases hs with ⟨h4, _⟩ | ⟨h4, _⟩ | ⟨_, _, h4, h5⟩
    · rw [h4] at h3; cases h3
    · rw [h4] at h3; cases h3
    · exact .inl ⟨by rw [h5, h3], h3, by rw [h4, h1], h2⟩
  | true =>
    right
    obtain ⟨ph, base, lo, ht, hp1, hp2⟩ := hf.tinv
    rw [bindResponse_bound hb] at ht
    refine ⟨ph, base, lo, ht, hp1, fun h => (hp2 h).2, ?_⟩
    rcases hs with ⟨h4, h5, cur, h6, _, h7⟩ | ⟨h4, h5, h6⟩ | ⟨h4, h5, h6, h7⟩
    · rw [if_pos h4, if_pos h4]
      have := (hp2 h4).2
      rw [h6] at this; cases this
      exact ⟨by rw [h7, hf.total], h5⟩
    · subst h4
      rw [if_neg (by simp), if_neg (by simp), if_pos rfl]
      refine ⟨h5, ?_⟩
      rw [h6, hf.total, ht.core.bufLen, ht.core.opt, ht.core.state]; rfl
    · rw [if_neg h4, if_neg h4, if_neg h5]; exact ⟨h6, h7⟩

end CoreHttp

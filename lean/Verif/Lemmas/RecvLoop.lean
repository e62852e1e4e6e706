import Verif.Lemmas.RecvParse

/-! # parseHttpResponse and the receiving loop -/

namespace CoreHttp
open Spec
variable {σ : Type}

section core
variable {S : Type} {cfg : Cfg} {strict : Bool} {r0 : Resp σ} {head : Bool} {stream : Bytes} {ph : Phase} {base lo : Nat} {v : View}
  {span : Option (Nat × Nat)} {h : RS S σ} {blk : Bytes}

/-- More data arrives at the end of what was received. -/
theorem RInv.extend (hi : RInv cfg strict r0 head stream ph base lo v span h blk) {data blk' : Bytes}
    (h1 : blk'.length = blk.length) (h2 : ∀ i, i < stream.length → blk'[i]? = blk[i]?)
    (h3 : slice blk' stream.length data.length = data) (h4 : stream.length + data.length ≤ r0.bufferLen) :
    RInv cfg strict r0 head (stream ++ data) ph base lo v span h blk' := by
  have hlo := hi.lo_le
  have hbl := hi.base_le
  exact { hi with
    room := by rw [h1]; exact hi.room
    fits := by simpa using h4
    lo_le := by simp; omega
    base_le := by simp; omega
    pend := by
      have hp := hi.pend
      have hF := hi.bndF
      have hV := hi.bndV
      unfold PendOk at hp ⊢
      cases hf : h.ctx.lastField with
      | none => rw [hf] at hp; exact hp
      | some f =>
        rw [hf] at hp
        have := hF f hf
        cases hx : h.ctx.lastValue with
        | none =>
          rw [hx] at hp
          dsimp only at hp ⊢
          rw [slice_append_left (by omega)]; exact hp
        | some x =>
          rw [hx] at hp
          dsimp only at hp ⊢
          have := hV x hx
          rw [slice_append_left (by omega), slice_append_left (by omega)]; exact hp
    body := by
      rcases hi.body with h | ⟨p, e, q1, q2, q3, q4⟩
      · exact .inl h
      · refine .inr ⟨p, e, q1, q2, q3, ?_⟩
        rw [← q4]
        exact slice_congr fun i _ hi2 => h2 i (by omega)
    agree := by
      intro i hi1 hi2
      by_cases hlt : i < stream.length
      · rw [h2 i hlt, List.getElem?_append_left hlt]
        exact hi.agree i hlt hi2
      · simp only [List.length_append] at hi1
        rw [List.getElem?_append_right (by omega)]
        have : data[i - stream.length]? = (slice blk' stream.length data.length)[i - stream.length]? := by rw [h3]
        rw [this]
        unfold slice
        rw [List.getElem?_take, if_pos (by omega), List.getElem?_drop]
        congr 1; omega }

/-- All received data has been parsed. -/
theorem RInv.rebase (hi : RInv cfg strict r0 head stream ph base lo v span h blk) (s : S) :
    RInv cfg strict r0 head stream ph stream.length lo v span
      { h with ctx := { h.ctx with parser := s, cur := some stream.length } } blk := by
  have hlo := hi.lo_le
  have hbl := hi.base_le
  obtain ⟨c, hc, hc1, hc2, hc3⟩ := hi.cur
  exact { hi with
    base_le := Nat.le_refl _
    cur := ⟨_, rfl, Nat.le_refl _, by omega, fun p hp => by have := hc3 p hp; dsimp only; omega⟩ }

/-- The parser paused. -/
theorem RInv.pausedCur (hi : RInv cfg strict r0 head stream ph base lo v span h blk) (s : S) (hlt : base ≤ lo) :
    RInv cfg strict r0 head stream ph base lo v span
      { h with ctx := { h.ctx with parser := s, cur := some lo } } blk := by
  obtain ⟨c, hc, hc1, hc2, hc3⟩ := hi.cur
  exact { hi with
    cur := ⟨_, rfl, hlt, by omega, fun p hp => by have := hc3 p hp; dsimp only; omega⟩ }

end core

variable {P : Parser} {cfg : Cfg} {strict : Bool} {r0 : Resp σ} {head : Bool} {b : Nat} {m0 : Mem} {log0 : List (Ev PLog)}

@[simp] theorem calls_append (a c : List (Ev PLog)) : calls (a ++ c) = calls a ++ calls c := by
  induction a with
  | nil => rfl
  | cons x xs ih => cases x <;> simp [calls, ih]

theorem feedAll_snoc (P : Parser) (pol : PEv → CbRet) (ds : List Bytes) (d : Bytes) :
    feedAll P pol (ds ++ [d]) = feedStep P pol (feedAll P pol ds) d := by simp [feedAll]

theorem inParse_calls {l : List (Ev PLog)} (h : ∀ e ∈ l, e.inParse = true) : calls l = [] := by
  induction l with
  | nil => rfl
  | cons x xs ih =>
    have := ih fun e he => h e (List.mem_cons_of_mem _ he)
    have hx := h x List.mem_cons_self
    cases x <;> simp_all [calls, Ev.inParse]

theorem IsSeg.calls {seg : List (Ev PLog)} {er : Errno} {ep : Nat} (h : IsSeg seg er ep) : calls seg = [] := by
  obtain ⟨s0, rfl, h0⟩ := h
  simp [inParse_calls h0, Spec.calls]

theorem IsSeg.parsed_nil {seg : List (Ev PLog)} {er : Errno} {ep : Nat} (h : IsSeg seg er ep) : parsed seg = [] := h.received.2.1

/-- State between calls of the parser: everything received has been parsed, and the parser is ready for more. -/
structure Ready (P : Parser) (Inv : P.St → Phase → Nat → Nat → Prop) (cfg : Cfg) (strict : Bool) (b : Nat) (r0 : Resp σ) (head : Bool)
    (m0 : Mem) (log0 : List (Ev PLog)) (ph : Phase) (lo : Nat) (evs : List (Ev PLog)) (h : RS P.St σ) (w : World PLog σ) : Prop where
  tinv : TInv cfg strict b r0 head m0 log0 ph (received evs).length lo evs (bindResponse h) w
  inv : Inv h.ctx.parser ph (received evs).length lo
  lo_le : lo ≤ (received evs).length
  live : ph ≠ .paused
  parsedAll : parsed evs = received evs
  fed : (obsOf evs, (received evs).length, h.ctx.parser, .ok) = feedAll P (policy r0.respOptionFlags head) (calls evs)
  fresh : h.ctx.bound = false → h.resp = r0 ∧ obsOf evs = []
  noEof : ∀ er ep, .parserEvent (.ret er ep) ∈ evs → er ≠ .invalidEofState

/-- State at the end of the loop. `h` is as it is then (possibly the parser was never called). -/
structure Final (P : Parser) (cfg : Cfg) (strict : Bool) (b : Nat) (r0 : Resp σ) (head : Bool)
    (m0 : Mem) (log0 : List (Ev PLog)) (st : Status) (total : Nat) (evs : List (Ev PLog)) (h : RS P.St σ) (w : World PLog σ) : Prop where
  tinv : ∃ ph base lo, TInv cfg strict b r0 head m0 log0 ph base lo evs (bindResponse h) w ∧
    (st = .parserPaused ↔ ph = .paused) ∧ (st = .parserPaused → h.ctx.bound = true ∧ h.ctx.cur = some lo)
  total : total = (received evs).length
  parsedAll : parsed evs = received evs
  fed : obsOf evs = (feedAll P (policy r0.respOptionFlags head) (calls evs)).1 ∧
    ((st = .networkError ∧ (feedAll P (policy r0.respOptionFlags head) (calls evs)).2.2.2 = .ok) ∨
      (st = processLlhttpError (feedAll P (policy r0.respOptionFlags head) (calls evs)).2.2.2 ∧
        (feedAll P (policy r0.respOptionFlags head) (calls evs)).2.2.2 ≠ .invalidEofState))
  fresh : h.ctx.bound = false → h.resp = r0 ∧ obsOf evs = [] ∧ st = .networkError
  noEof : ∀ er ep, .parserEvent (.ret er ep) ∈ evs → er ≠ .invalidEofState

theorem bindResponse_bound {S : Type} {h : RS S σ} (hb : h.ctx.bound = true) : bindResponse h = h := by
  unfold bindResponse; rw [if_neg (by rw [hb]; simp)]

theorem bindResponse_isBound {S : Type} (h : RS S σ) : (bindResponse h).ctx.bound = true := by
  unfold bindResponse
  cases hb : h.ctx.bound <;> simp [hb]

theorem bindResponse_parser {S : Type} (h : RS S σ) : (bindResponse h).ctx.parser = h.ctx.parser := by
  unfold bindResponse; split <;> rfl

theorem bindResponse_idem {S : Type} (h : RS S σ) : bindResponse (bindResponse h) = bindResponse h :=
  bindResponse_bound (bindResponse_isBound h)

theorem processLlhttpError_success {er : Errno} (h : processLlhttpError er = .success) (hne : er ≠ .invalidEofState) :
    er = .ok ∨ er = .pausedUpgrade := by
  cases er <;> simp_all [processLlhttpError]

theorem processLlhttpError_paused {er : Errno} : processLlhttpError er = .parserPaused ↔ er = .paused := by
  cases er <;> simp [processLlhttpError]

theorem processLlhttpError_network (er : Errno) : processLlhttpError er ≠ .networkError := by
  cases er <;> simp [processLlhttpError]

/-- One call of parseHttpResponse with all data received since the last one. -/
theorem parse_spec {Inv : P.St → Phase → Nat → Nat → Prop}
    (hP : ∀ s ph base lo data, Inv s ph base lo → lo ≤ base → TreeOk strict Inv base data.length (P.exec s data) ph lo)
    {ph : Phase} {base lo : Nat} {evs : List (Ev PLog)} {h : RS P.St σ} {w : World PLog σ}
    (ht : TInv cfg strict b r0 head m0 log0 ph base lo evs (bindResponse h) w)
    (hinv : Inv h.ctx.parser ph base lo) (hlo : lo ≤ base)
    (hpl : (parsed evs).length = base) (hpp : parsed evs = (received evs).take base)
    (hfed : (obsOf evs, base, h.ctx.parser, .ok) = feedAll P (policy r0.respOptionFlags head) (calls evs))
    (hz : (received evs).length - base = 0 → base < r0.bufferLen) (hne : ∀ er ep, .parserEvent (.ret er ep) ∈ evs → er ≠ .invalidEofState) :
    ∃ er ep h' w' seg, parseHttpResponse P cfg b h ((received evs).length - base) w = (.ok (processLlhttpError er, h'), w') ∧
      IsSeg seg er ep ∧
      Final P cfg strict b r0 head m0 log0 (processLlhttpError er) (received evs).length
        (evs ++ (.parserCall base ((received evs).drop base) :: seg)) h' w' ∧ h'.ctx.bound = true ∧
      h'.ctx.state = (view (obsOf (evs ++ (.parserCall base ((received evs).drop base) :: seg)))).state ∧
      (processLlhttpError er = .success → h'.ctx.state ≠ .complete →
        er = .ok ∧ ∃ ph' lo', Ready P Inv cfg strict b r0 head m0 log0 ph' lo' (evs ++ (.parserCall base ((received evs).drop base) :: seg)) h' w') := by
  generalize hdata : (received evs).drop base = data
  have hfits := ht.core.fits
  have hroom := ht.core.room
  have hbl := ht.core.base_le
  have hdlen : data.length = (received evs).length - base := by rw [← hdata]; simp
  obtain ⟨c, hc, hc1, hc2, hc3⟩ := ht.core.cur
  obtain rfl : c = base := by omega
  -- the data handed to the parser is what was received
  have hmem : memRead (w.mem b) c ((received evs).length - c) = .ok data := by
    rw [memRead_ok (by omega)]
    have h1 : ((w.mem b).drop c).take ((received evs).length - c) = slice (w.mem b) c ((received evs).length - c) := rfl
    have h2 : slice (received evs) c ((received evs).length - c) = data := by
      unfold slice; rw [hdata, ← hdlen, List.take_length]
    rw [h1, ← h2]
    congr 1
    apply slice_congr
    intro i hi1 hi2
    apply ht.core.agree i (by omega)
    intro p e he
    have := spanEnd_le ht.core p e he
    right; omega
  have hi1 : TInv cfg strict b r0 head m0 log0 ph c lo (evs ++ [.parserCall c data]) (bindResponse h)
      { w with log := w.log ++ [.parserCall c data] } := {
    core := by simpa [received, obsOf] using ht.core
    log := by simp [ht.log]
    frame := ht.frame
    each := ht.each.snoc (by
      simp only [EvGood]
      refine ⟨hpl.symm, ?_⟩
      rw [hpp, ← hdata, List.take_append_drop])
    rep := by simpa [reported, obsOf] using ht.rep
    pausedAt := by simpa [obsOf] using ht.pausedAt
    prog := by simpa [obsOf] using ht.prog
    noHc := by simpa [obsOf] using ht.noHc
    headNb := by simpa [obsOf] using ht.headNb
    x := {
      ptr := by rw [hdrScan_snoc]; exact ht.x.ptr
      len := by rw [hdrScan_snoc]; exact ht.x.len
      cur := by rw [hdrScan_snoc]; exact ht.x.cur
      le := by rw [hdrScan_snoc]; exact ht.x.le
      late := by simpa [obsOf] using ht.x.late }
    loc := ht.loc.skip rfl rfl rfl }
  obtain ⟨er, ep, s, h', w', seg, ph', lo', hrun, hT, hdone, hseg, hobs, hres⟩ := runTree_inv (data := data)
    (P.exec h.ctx.parser data) ph lo _ _ _ hi1 (hP _ _ _ _ _ hinv hlo) (by simp [received, hdata]) (by rw [hdrScan_snoc]; rfl) (by rw [hdlen]; exact hz)
  have hrecv : received (evs ++ (.parserCall c data :: seg)) = received evs := by
    simp [received, hseg.received.1]
  have hparsed : parsed (evs ++ (.parserCall c data :: seg)) = received (evs ++ (.parserCall c data :: seg)) := by
    rw [hrecv]; simp only [parsed_append, parsed, hseg.parsed_nil, List.append_nil, hpp, ← hdata, List.take_append_drop]
  have hbd : h'.ctx.bound = true := hT.core.bound
  have hcalls : calls (evs ++ (.parserCall c data :: seg)) = calls evs ++ [data] := by
    simp [calls, hseg.calls]
  have hfedall : feedAll P (policy r0.respOptionFlags head) (calls evs ++ [data]) =
      (obsOf (evs ++ (.parserCall c data :: seg)), (received evs).length, s, er) := by
    rw [feedAll_snoc, ← hfed]
    simp only [feedStep, obsOf_append, obsOf, hobs, ← hres]
    rw [hdlen, show c + ((received evs).length - c) = (received evs).length by omega]
  have hassoc : evs ++ [.parserCall c data] ++ seg = evs ++ (.parserCall c data :: seg) := by simp
  rw [hassoc] at hT
  have hnoeof : ∀ er' ep', .parserEvent (.ret er' ep') ∈ evs ++ (.parserCall c data :: seg) → er' ≠ .invalidEofState := by
    intro er' ep' hm
    obtain ⟨s0, rfl, h0⟩ := hseg
    simp only [List.mem_append, List.mem_cons] at hm
    rcases hm with hm | hm | hm | hm | hm
    · exact hne _ _ hm
    · cases hm
    · have := h0 _ hm; simp [Ev.inParse] at this
    · cases hm; exact hdone.2.2.2.2.2
    · cases hm
  obtain ⟨d1, d2, d3, d4, d5, d6⟩ := hdone
  have hxr : ∀ {g : PCtx P.St}, g.cur = some (received evs).length →
      XInv ph' (received evs).length lo' (evs ++ (.parserCall c data :: seg)) (⟨h'.resp, g⟩ : RS P.St σ) := fun hg =>
    { ptr := hT.x.ptr, len := hT.x.len, le := hT.x.le, late := hT.x.late
      cur := fun _ => by
        have h1 := hT.x.le
        have h2 := hT.core.lo_le
        rw [hrecv] at h2
        rw [Nat.max_eq_right (by omega)]
        exact hg }
  -- state when the call returns
  have hst' : h'.ctx.state = (view (obsOf (evs ++ (.parserCall c data :: seg)))).state := hT.core.state
  refine ⟨er, ep, { h' with ctx := { h'.ctx with
      parser := if er = .pausedUpgrade then P.resume s else s
      cur := some (if er = .paused then c + ep else c + ((received evs).length - c)) } }, w', seg, ?_, hseg, ?_, hbd, hst', ?_⟩
  · unfold parseHttpResponse
    simp only [hc, M.bind_apply, M.world_apply, M.ofRun_apply, hmem, M.emit_apply, bindResponse_parser, hrun, M.pure_apply]
    by_cases hu : er = .pausedUpgrade
    · subst hu; simp [processLlhttpError]
    · simp [hu]
  · refine ⟨?_, by rw [hrecv], hparsed, by rw [hcalls, hfedall]; exact ⟨rfl, .inr ⟨rfl, d6⟩⟩, fun h => by simp [hbd] at h, hnoeof⟩
    rw [bindResponse_bound (by exact hbd)]
    by_cases h0 : er = .paused
    · have hcl := d3 h0
      refine ⟨ph', c, lo', ?_, ⟨fun _ => d2.mp h0, fun _ => processLlhttpError_paused.mpr h0⟩, fun _ => ⟨hbd, by simp [h0, hcl]⟩⟩
      have := hT.core.pausedCur (if er = .pausedUpgrade then P.resume s else s) (by omega)
      exact { core := by rw [if_pos h0, hcl]; exact this, log := hT.log, frame := hT.frame, each := hT.each, rep := hT.rep,
              pausedAt := hT.pausedAt, prog := hT.prog, noHc := hT.noHc, headNb := hT.headNb, loc := ⟨hT.loc.ctx, hT.loc.at_, hT.loc.len, hT.loc.vals⟩
              x := { ptr := hT.x.ptr, len := hT.x.len, cur := fun h => absurd (d2.mp h0) h, le := hT.x.le, late := hT.x.late } }
    · refine ⟨ph', (received evs).length, lo', ?_, ⟨fun h => absurd (processLlhttpError_paused.mp h) h0, fun h => absurd (d2.mpr h) h0⟩,
        fun h => absurd (processLlhttpError_paused.mp h) h0⟩
      have := hT.core.rebase (if er = .pausedUpgrade then P.resume s else s)
      rw [hrecv] at this
      exact { core := by
                rw [if_neg h0, show c + ((received evs).length - c) = (received evs).length by omega, hrecv]; exact this
              log := hT.log, frame := hT.frame, each := hT.each, rep := hT.rep, pausedAt := hT.pausedAt, prog := hT.prog, noHc := hT.noHc, headNb := hT.headNb, loc := ⟨hT.loc.ctx, hT.loc.at_, hT.loc.len, hT.loc.vals⟩
              x := hxr (by simp [h0, show c + ((received evs).length - c) = (received evs).length by omega]) }
  · intro hsucc hnc
    have hok : er = .ok := by
      rcases processLlhttpError_success hsucc d6 with h | h
      · exact h
      · exact absurd (hT.core.state.trans (hT.core.done (d5 h))) hnc
    subst hok
    refine ⟨rfl, ph', lo', ?_⟩
    have := hT.core.rebase s
    rw [hrecv] at this
    exact {
      tinv := by
        rw [bindResponse_bound (by exact hbd)]
        exact { core := by
                  simp only [reduceCtorEq, if_false]
                  rw [show c + ((received evs).length - c) = (received evs).length by omega, hrecv]; exact this
                log := hT.log, frame := hT.frame, each := hT.each, rep := hT.rep, pausedAt := hT.pausedAt, prog := hT.prog, noHc := hT.noHc, headNb := hT.headNb, loc := ⟨hT.loc.ctx, hT.loc.at_, hT.loc.len, hT.loc.vals⟩
                x := by rw [hrecv]; exact hxr (by simp; omega) }
      inv := by
        have := d1 rfl
        rw [hrecv]
        rw [show c + data.length = (received evs).length by omega] at this
        simpa using this
      lo_le := hT.core.lo_le
      live := fun h => by have := d2.mpr h; cases this
      parsedAll := hparsed
      fed := by rw [hcalls, hfedall, hrecv]; simp
      fresh := fun h => by simp [hbd] at h
      noEof := hnoeof }

/-- Traces of the receiving loop. `pre` is the trace so far, `last` the time of the last progress; the outcome is `none` when the run is cut
off, else the status of the loop. -/
inductive RecvTrace (T : UInt32) (L : Nat) : List (Ev PLog) → UInt32 → List (Ev PLog) → Option Status → Prop
  | cut {pre last} : RecvTrace T L pre last [] none
  | err {pre last ret} (hr : ret < 0) :
      RecvTrace T L pre last [.recv (received pre).length (L - (received pre).length) ret []] (some .networkError)
  | data_stop {pre last ret data t seg er ep} (hr : 0 < ret) (hs : IsSeg seg er ep)
      (hd : processLlhttpError er ≠ .success ∨
        msgState (pre ++ .recv (received pre).length (L - (received pre).length) ret data :: .time t ::
          .parserCall (received pre).length data :: seg) = .complete ∨ (received pre).length + data.length = L) :
      RecvTrace T L pre last (.recv (received pre).length (L - (received pre).length) ret data :: .time t ::
        .parserCall (received pre).length data :: seg) (some (processLlhttpError er))
  | data_go {pre last ret data t seg er ep evs o} (hr : 0 < ret) (hs : IsSeg seg er ep) (he : er = .ok)
      (hd : msgState (pre ++ .recv (received pre).length (L - (received pre).length) ret data :: .time t ::
          .parserCall (received pre).length data :: seg) ≠ .complete) (hlt : (received pre).length + data.length < L)
      (k : RecvTrace T L (pre ++ .recv (received pre).length (L - (received pre).length) ret data :: .time t ::
          .parserCall (received pre).length data :: seg) t evs o) :
      RecvTrace T L pre last (.recv (received pre).length (L - (received pre).length) ret data :: .time t ::
        .parserCall (received pre).length data :: seg ++ evs) o
  | zero_stop {pre last t seg er ep} (hs : IsSeg seg er ep) (ht : T ≤ t - last) :
      RecvTrace T L pre last (.recv (received pre).length (L - (received pre).length) 0 [] :: .time t ::
        .parserCall (received pre).length [] :: seg) (some (processLlhttpError er))
  | zero_go {pre last t evs o} (ht : ¬ T ≤ t - last)
      (k : RecvTrace T L (pre ++ [.recv (received pre).length (L - (received pre).length) 0 [], .time t]) last evs o) :
      RecvTrace T L pre last (.recv (received pre).length (L - (received pre).length) 0 [] :: .time t :: evs) o

/-- A receive call: the invariant with the data it delivered. -/
theorem recv_inv {S : Type} {ph : Phase} {base lo : Nat} {evs : List (Ev PLog)} {h : RS S σ} {w : World PLog σ} {ret : Int} {bytes : Bytes} {s' : σ}
    (hi : TInv cfg strict b r0 head m0 log0 ph base lo evs h w) (hlt : (received evs).length < r0.bufferLen)
    (h1 : ret ≤ ((r0.bufferLen - (received evs).length : Nat) : Int)) (h2 : bytes.length ≤ r0.bufferLen - (received evs).length) :
    ∃ blk, memWrite (w.mem b) (received evs).length bytes = .ok blk ∧ (slice blk (received evs).length ret.toNat).length = ret.toNat ∧
      TInv cfg strict b r0 head m0 log0 ph base lo
        (evs ++ [.recv (received evs).length (r0.bufferLen - (received evs).length) ret (slice blk (received evs).length ret.toNat)]) h
        ⟨s', w.mem.set b blk, w.log ++
          [.recv (received evs).length (r0.bufferLen - (received evs).length) ret (slice blk (received evs).length ret.toNat)]⟩ := by
  have hroom := hi.core.room
  have hw : (received evs).length + bytes.length ≤ (w.mem b).length := by omega
  have hbl : (splice (w.mem b) (received evs).length bytes).length = (w.mem b).length := splice_length hw
  have hret : ret.toNat ≤ r0.bufferLen - (received evs).length := by omega
  have hsl : (slice (splice (w.mem b) (received evs).length bytes) (received evs).length ret.toNat).length = ret.toNat :=
    slice_length (by omega)
  refine ⟨_, memWrite_ok hw, hsl, ?_⟩
  generalize hD : slice (splice (w.mem b) (received evs).length bytes) (received evs).length ret.toNat = D at *
  exact {
    core := by
      simp only [received_append, received, List.append_nil, obsOf_append, obsOf, Mem.set_same]
      refine hi.core.extend hbl ?_ ?_ (by omega)
      · intro i hi'
        rw [splice_getElem? hw, if_pos hi']
      · rw [hsl]; exact hD
    log := by simp [hi.log]
    frame := by
      refine ⟨fun i hne => ?_, ?_, ?_⟩
      · dsimp only
        rw [Mem.set_other _ _ hne]; exact hi.frame.1 i hne
      · dsimp only
        rw [Mem.set_same, hbl]; exact hi.frame.2.1
      · dsimp only
        rw [Mem.set_same, drop_splice hw (by omega)]; exact hi.frame.2.2
    each := hi.each.snoc (by
      simp only [EvGood]
      exact ⟨trivial, by omega, by omega, hsl, hret⟩)
    rep := by simpa [reported, obsOf] using hi.rep
    pausedAt := by simpa [obsOf] using hi.pausedAt
    prog := by simpa [obsOf] using hi.prog
    noHc := by simpa [obsOf] using hi.noHc
    headNb := by simpa [obsOf] using hi.headNb
    x := hi.x.skip rfl rfl
    loc := hi.loc.skip rfl rfl rfl }

/-- Reading the clock does not matter for the invariant. -/
theorem time_inv {S : Type} {ph : Phase} {base lo : Nat} {evs : List (Ev PLog)} {h : RS S σ} {m : Mem} {s s' : σ} {lg : List (Ev PLog)}
    (hi : TInv cfg strict b r0 head m0 log0 ph base lo evs h ⟨s, m, lg⟩) (t : UInt32) :
    TInv cfg strict b r0 head m0 log0 ph base lo (evs ++ [.time t]) h ⟨s', m, lg ++ [.time t]⟩ := {
  core := by simpa [received, obsOf] using hi.core
  log := by have h0 := hi.log; dsimp only at h0; rw [h0]; simp
  frame := hi.frame
  each := hi.each.snoc trivial
  rep := by simpa [reported, obsOf] using hi.rep
  pausedAt := by simpa [obsOf] using hi.pausedAt
  prog := by simpa [obsOf] using hi.prog
  noHc := by simpa [obsOf] using hi.noHc
  headNb := by simpa [obsOf] using hi.headNb
  x := hi.x.skip rfl rfl
  loc := hi.loc.skip rfl rfl rfl }

theorem bindResponse_bufferLen {S : Type} (h : RS S σ) : (bindResponse h).resp.bufferLen = h.resp.bufferLen := by
  unfold bindResponse; split <;> rfl
theorem bindResponse_getTime {S : Type} (h : RS S σ) : (bindResponse h).resp.getTime = h.resp.getTime := by
  unfold bindResponse; split <;> rfl
theorem bindResponse_state {S : Type} (h : RS S σ) : (bindResponse h).ctx.state = h.ctx.state := by
  unfold bindResponse; split <;> rfl

/-- The parser has been fed everything received, without error. -/
def FedOk (P : Parser) (pol : PEv → CbRet) (evs : List (Ev PLog)) : Prop :=
  parsed evs = received evs ∧ obsOf evs = (feedAll P pol (calls evs)).1 ∧ (feedAll P pol (calls evs)).2.2.2 = .ok

/-- Whenever the receive function is called, the parser has been fed everything received before, without error. -/
def FedAt (P : Parser) (pol : PEv → CbRet) (evs tr : List (Ev PLog)) : Prop :=
  ∀ pre off len ret data post, tr = pre ++ .recv off len ret data :: post → FedOk P pol (evs ++ pre)

theorem FedAt.nil {P : Parser} {pol : PEv → CbRet} {evs : List (Ev PLog)} : FedAt P pol evs [] := by
  intro pre off len ret data post h; cases pre <;> cases h

theorem FedAt.cons {P : Parser} {pol : PEv → CbRet} {evs rest tr : List (Ev PLog)} {e : Ev PLog} (h0 : FedOk P pol evs) (h1 : recvs rest = [])
    (h2 : FedAt P pol (evs ++ e :: rest) tr) : FedAt P pol evs (e :: rest ++ tr) := by
  intro pre off len ret data post h
  cases pre with
  | nil => simpa using h0
  | cons x xs =>
    simp only [List.cons_append, List.cons.injEq] at h
    obtain ⟨rfl, h⟩ := h
    have key : ∀ (rest xs : List (Ev PLog)), recvs rest = [] → rest ++ tr = xs ++ .recv off len ret data :: post →
        ∃ ys, xs = rest ++ ys ∧ tr = ys ++ .recv off len ret data :: post := by
      intro rest
      induction rest with
      | nil => intro xs _ h; exact ⟨xs, rfl, h⟩
      | cons y ys ih =>
        intro xs h1 h
        cases xs with
        | nil =>
          simp only [List.cons_append, List.nil_append, List.cons.injEq] at h
          obtain ⟨rfl, _⟩ := h
          simp [recvs] at h1
        | cons z zs =>
          simp only [List.cons_append, List.cons.injEq] at h
          obtain ⟨rfl, h⟩ := h
          have h1' : recvs ys = [] := by cases y <;> simp_all [recvs]
          obtain ⟨us, rfl, hu⟩ := ih zs h1' h
          exact ⟨us, rfl, hu⟩
    obtain ⟨ys, rfl, hy⟩ := key rest xs h1 h
    have := h2 ys off len ret data post hy
    simpa using this

/-- The receiving loop. -/
theorem recvLoop_spec_fed {Inv : P.St → Phase → Nat → Nat → Prop}
    (hP : ∀ s ph base lo data, Inv s ph base lo → lo ≤ base → TreeOk strict Inv base data.length (P.exec s data) ph lo)
    {recv : σ → Nat → Int × Bytes × σ} (hR : RecvOk recv) (hclock : r0.getTime ≠ .null) (T : UInt32) :
    ∀ (fuel : Nat) (last : UInt32) (ph : Phase) (lo : Nat) (evs : List (Ev PLog)) (h : RS P.St σ) (w : World PLog σ),
    Ready P Inv cfg strict b r0 head m0 log0 ph lo evs h w → (received evs).length < r0.bufferLen → msgState evs ≠ .complete →
    ∃ r w' tr, recvLoop P cfg recv T b fuel (received evs).length last h w = (r, w') ∧ w'.log = log0 ++ (evs ++ tr) ∧
      EachEv (EvGood r0.bufferLen) (evs ++ tr) ∧ FrameBuf m0 w'.mem b r0.bufferLen ∧
      FedAt P (policy r0.respOptionFlags head) evs tr ∧
      ((r = .more ∧ RecvTrace T r0.bufferLen evs last tr none) ∨
       ∃ st total h', r = .ok (st, total, h') ∧ RecvTrace T r0.bufferLen evs last tr (some st) ∧
         Final P cfg strict b r0 head m0 log0 st total (evs ++ tr) h' w') := by
  intro fuel
  induction fuel with
  | zero =>
    intro last ph lo evs h w hr hlt hst
    exact ⟨.more, w, [], rfl, by simpa using hr.tinv.log, by simpa using hr.tinv.each, hr.tinv.frame, .nil, .inl ⟨rfl, .cut⟩⟩
  | succ n ih =>
    intro last ph lo evs h w hr hlt hst
    have hbuf : h.resp.bufferLen = r0.bufferLen := by rw [← bindResponse_bufferLen]; exact hr.tinv.core.bufLen
    have hgt : h.resp.getTime = r0.getTime := by rw [← bindResponse_getTime]; exact hr.tinv.core.gt
    have hstate : h.ctx.state = msgState evs := by rw [← bindResponse_state]; exact hr.tinv.core.state
    have hfk : FedOk P (policy r0.respOptionFlags head) evs := ⟨hr.parsedAll, by rw [← hr.fed], by rw [← hr.fed]⟩
    unfold recvLoop
    simp only [M.bind_apply, M.world_apply, M.ofRun_apply, hbuf]
    obtain ⟨hR1, hR2⟩ := hR w.env (r0.bufferLen - (received evs).length)
    generalize recv w.env (r0.bufferLen - (received evs).length) = rr at hR1 hR2
    obtain ⟨ret, bytes, s'⟩ := rr
    dsimp only at hR1 hR2 ⊢
    obtain ⟨blk, hwr, hlen, hi1⟩ := recv_inv (s' := s') hr.tinv hlt hR1 hR2
    simp only [hwr, M.setEnv_apply, M.setMem_apply, M.emit_apply]
    generalize hD : slice blk (received evs).length ret.toNat = D at *
    by_cases hneg : ret < 0
    · -- error
      have hD0 : D = [] := by
        have : ret.toNat = 0 := by omega
        rw [this] at hlen
        exact List.length_eq_zero_iff.mp hlen
      subst hD0
      rw [if_pos hneg]
      refine ⟨_, _, [.recv (received evs).length (r0.bufferLen - (received evs).length) ret []], rfl, ?_, hi1.each, hi1.frame,
        by simpa using FedAt.cons (rest := []) (tr := []) hfk rfl .nil, .inr ⟨.networkError, (received evs).length, h, rfl, .err hneg, ?_⟩⟩
      · simp [hr.tinv.log]
      · exact {
          tinv := ⟨ph, _, lo, hi1, ⟨fun h => (by cases h), fun h => absurd h hr.live⟩, fun h => (by cases h)⟩
          total := by simp [received]
          parsedAll := by simp [received, parsed, hr.parsedAll]
          fed := by simp only [obsOf_append, obsOf, calls_append, calls, List.append_nil]; rw [← hr.fed]; exact ⟨by trivial, .inl ⟨by trivial, by trivial⟩⟩
          fresh := fun h => ⟨(hr.fresh h).1, by simpa [obsOf] using (hr.fresh h).2, rfl⟩
          noEof := by
            intro er ep hm
            simp only [List.mem_append, List.mem_singleton, reduceCtorEq, or_false] at hm
            exact hr.noEof er ep hm }
    · rw [if_neg hneg]
      obtain ⟨t, s2, ht⟩ := readClock_ok hclock (⟨s', w.mem.set b blk, w.log ++
        [.recv (received evs).length (r0.bufferLen - (received evs).length) ret D]⟩ : World PLog σ)
      have hi2 := time_inv (s' := s2) hi1 t
      have hrec2 : received (evs ++ [.recv (received evs).length (r0.bufferLen - (received evs).length) ret D] ++ [.time t]) =
          received evs ++ D := by simp [received]
      have hpar2 : parsed (evs ++ [.recv (received evs).length (r0.bufferLen - (received evs).length) ret D] ++ [.time t]) =
          received evs := by simp [parsed, hr.parsedAll]
      have hfed2 : (obsOf (evs ++ [.recv (received evs).length (r0.bufferLen - (received evs).length) ret D] ++ [.time t]),
          (received evs).length, h.ctx.parser, .ok) = feedAll P (policy r0.respOptionFlags head)
            (calls (evs ++ [.recv (received evs).length (r0.bufferLen - (received evs).length) ret D] ++ [.time t])) := by
        simp only [obsOf_append, obsOf, calls_append, calls, List.append_nil]; exact hr.fed
      have hne2 : ∀ er ep, .parserEvent (.ret er ep) ∈
          (evs ++ [.recv (received evs).length (r0.bufferLen - (received evs).length) ret D] ++ [.time t]) → er ≠ .invalidEofState := by
        intro er ep hm
        simp only [List.mem_append, List.mem_singleton, reduceCtorEq, or_false] at hm
        exact hr.noEof er ep hm
      by_cases hpos : ret > 0
      · -- data
        rw [if_pos hpos]
        simp only [M.bind_apply, hgt, ht]
        obtain ⟨er, ep, h', w', seg, hparse, hseg, hfin, hbd, hst', hgo⟩ := parse_spec (h := h) hP hi2 hr.inv hr.lo_le
          (by rw [hpar2]) (by rw [hpar2, hrec2]; simp) hfed2 (by rw [hrec2]; simp; omega) hne2
        have hn : (received (evs ++ [.recv (received evs).length (r0.bufferLen - (received evs).length) ret D] ++ [.time t])).length -
            (received evs).length = ret.toNat := by rw [hrec2]; simp [hlen]
        have hdrop : (received (evs ++ [.recv (received evs).length (r0.bufferLen - (received evs).length) ret D] ++ [.time t])).drop
            (received evs).length = D := by rw [hrec2]; simp
        rw [hn] at hparse
        rw [hdrop] at hfin hst' hgo
        have htot : (received evs).length + ret.toNat = (received evs ++ D).length := by simp [hlen]
        have hassoc : evs ++ [.recv (received evs).length (r0.bufferLen - (received evs).length) ret D] ++ [.time t] ++
            (.parserCall (received evs).length D :: seg) = evs ++ (.recv (received evs).length (r0.bufferLen - (received evs).length) ret D ::
              .time t :: .parserCall (received evs).length D :: seg) := by simp
        rw [hassoc] at hfin hst' hgo
        rw [hrec2] at hfin
        have hbuf' : h'.resp.bufferLen = r0.bufferLen := by
          obtain ⟨ph', base', lo', hT, _⟩ := hfin.tinv
          rw [← bindResponse_bufferLen]; exact hT.core.bufLen
        rw [hparse]
        dsimp only
        rw [hbuf', htot]
        obtain ⟨ph1, base1, lo1, hT1, _⟩ := hfin.tinv
        by_cases hcont : processLlhttpError er = .success ∧ h'.ctx.state ≠ .complete ∧ (received evs ++ D).length < r0.bufferLen
        · rw [if_pos hcont]
          obtain ⟨hc1, hc2, hc3⟩ := hcont
          obtain ⟨hok, ph', lo', hready⟩ := hgo hc1 hc2
          have hrec3 : received (evs ++ (.recv (received evs).length (r0.bufferLen - (received evs).length) ret D ::
              .time t :: .parserCall (received evs).length D :: seg)) = received evs ++ D := by
            simp [received, hseg.received.1]
          obtain ⟨r, w'', tr, e1, e2, e3, e4, e6, e5⟩ := ih t ph' lo' _ h' w' hready (by rw [hrec3]; exact hc3)
            (by unfold msgState; rw [← hst']; exact hc2)
          rw [hrec3] at e1
          refine ⟨r, w'', (.recv (received evs).length (r0.bufferLen - (received evs).length) ret D ::
              .time t :: .parserCall (received evs).length D :: seg) ++ tr, e1, ?_, ?_, e4,
              FedAt.cons hfk (by simp [recvs, hseg.received.2.2]) e6, ?_⟩
          · rw [e2]; simp
          · simpa using e3
          · have hlt' : (received evs).length + D.length < r0.bufferLen := by simpa using hc3
            have hms : msgState (evs ++ (.recv (received evs).length (r0.bufferLen - (received evs).length) ret D ::
              .time t :: .parserCall (received evs).length D :: seg)) ≠ .complete := by
              unfold msgState; rw [← hst']; exact hc2
            rcases e5 with ⟨h1, h2⟩ | ⟨st, total, h3, h1, h2, h4⟩
            · exact .inl ⟨h1, .data_go hpos hseg hok hms hlt' h2⟩
            · refine .inr ⟨st, total, h3, h1, .data_go hpos hseg hok hms hlt' h2, ?_⟩
              simpa using h4
        · rw [if_neg hcont]
          refine ⟨_, w', .recv (received evs).length (r0.bufferLen - (received evs).length) ret D ::
              .time t :: .parserCall (received evs).length D :: seg, rfl, hT1.log, hT1.each, hT1.frame,
              by simpa using FedAt.cons (tr := []) hfk (by simp [recvs, hseg.received.2.2]) .nil, .inr ⟨_, _, h', rfl, .data_stop hpos hseg ?_, hfin⟩⟩
          by_cases hc1 : processLlhttpError er = .success
          · right
            by_cases hc2 : h'.ctx.state = .complete
            · left; unfold msgState; rw [← hst']; exact hc2
            · right
              have : ¬ (received evs ++ D).length < r0.bufferLen := fun h => hcont ⟨hc1, hc2, h⟩
              have := hT1.core.fits
              have hrec3 : received (evs ++ (.recv (received evs).length (r0.bufferLen - (received evs).length) ret D ::
                  .time t :: .parserCall (received evs).length D :: seg)) = received evs ++ D := by
                simp [received, hseg.received.1]
              rw [hrec3] at this
              simp only [List.length_append] at *
              omega
          · exact .inl hc1
      · -- nothing received
        obtain rfl : ret = 0 := by omega
        have hD0 : D = [] := List.length_eq_zero_iff.mp hlen
        subst hD0
        rw [if_neg hpos]
        simp only [M.bind_apply, hgt, ht]
        by_cases hto : t - last ≥ T
        · -- timeout
          rw [if_pos hto]
          simp only [M.bind_apply]
          obtain ⟨er, ep, h', w', seg, hparse, hseg, hfin, hbd, hst', hgo⟩ := parse_spec (h := h) hP hi2 hr.inv hr.lo_le
            (by rw [hpar2]) (by rw [hpar2, hrec2]; simp) hfed2 (by intro _; exact hlt) hne2
          have hn : (received (evs ++ [.recv (received evs).length (r0.bufferLen - (received evs).length) 0 []] ++ [.time t])).length -
              (received evs).length = 0 := by rw [hrec2]; simp
          have hdrop : (received (evs ++ [.recv (received evs).length (r0.bufferLen - (received evs).length) 0 []] ++ [.time t])).drop
              (received evs).length = [] := by rw [hrec2]; simp
          rw [hn] at hparse
          rw [hdrop] at hfin
          have hassoc : evs ++ [.recv (received evs).length (r0.bufferLen - (received evs).length) 0 []] ++ [.time t] ++
            (.parserCall (received evs).length [] :: seg) = evs ++ (.recv (received evs).length (r0.bufferLen - (received evs).length) 0 [] ::
              .time t :: .parserCall (received evs).length [] :: seg) := by simp
          rw [hassoc, hrec2, List.append_nil] at hfin
          rw [hparse]
          obtain ⟨ph1, base1, lo1, hT1, _⟩ := hfin.tinv
          exact ⟨_, w', .recv (received evs).length (r0.bufferLen - (received evs).length) 0 [] ::
              .time t :: .parserCall (received evs).length [] :: seg, rfl, hT1.log, hT1.each, hT1.frame,
              by simpa using FedAt.cons (tr := []) hfk (by simp [recvs, hseg.received.2.2]) .nil, .inr ⟨_, _, h', rfl, .zero_stop hseg hto, hfin⟩⟩
        · -- retry
          rw [if_neg hto]
          have hcond : h.ctx.state ≠ .complete ∧ (received evs).length < h.resp.bufferLen := ⟨by rw [hstate]; exact hst, by rw [hbuf]; exact hlt⟩
          rw [hbuf] at hcond
          rw [if_pos hcond]
          have hready : Ready P Inv cfg strict b r0 head m0 log0 ph lo
              (evs ++ [.recv (received evs).length (r0.bufferLen - (received evs).length) 0 []] ++ [.time t]) h
              ⟨s2, w.mem.set b blk, w.log ++ [.recv (received evs).length (r0.bufferLen - (received evs).length) 0 []] ++ [.time t]⟩ := {
            tinv := by
              rw [hrec2, List.append_nil]; exact hi2
            inv := by rw [hrec2, List.append_nil]; exact hr.inv
            lo_le := by rw [hrec2, List.append_nil]; exact hr.lo_le
            live := hr.live
            parsedAll := by rw [hrec2, hpar2, List.append_nil]
            fed := by rw [hrec2, List.append_nil]; exact hfed2
            fresh := fun h => ⟨(hr.fresh h).1, by simpa [obsOf] using (hr.fresh h).2⟩
            noEof := hne2 }
          obtain ⟨r, w'', tr, e1, e2, e3, e4, e6, e5⟩ := ih last ph lo _ h _ hready (by rw [hrec2, List.append_nil]; exact hlt)
            (by simpa [msgState, obsOf] using hst)
          rw [hrec2, List.append_nil] at e1
          have hassoc : evs ++ [.recv (received evs).length (r0.bufferLen - (received evs).length) 0 []] ++ [.time t] =
              evs ++ [.recv (received evs).length (r0.bufferLen - (received evs).length) 0 [], .time t] := by simp
          refine ⟨r, w'', .recv (received evs).length (r0.bufferLen - (received evs).length) 0 [] :: .time t :: tr, e1, ?_, ?_, e4,
            by simpa using FedAt.cons (rest := [.time t]) hfk rfl (by simpa using e6), ?_⟩
          · rw [e2]; simp
          · simpa using e3
          · rw [hassoc] at e5
            rcases e5 with ⟨h1, h2⟩ | ⟨st, total, h3, h1, h2, h4⟩
            · exact .inl ⟨h1, .zero_go hto h2⟩
            · refine .inr ⟨st, total, h3, h1, .zero_go hto h2, ?_⟩
              simpa using h4

/-- The receiving loop. -/
theorem recvLoop_spec {Inv : P.St → Phase → Nat → Nat → Prop}
    (hP : ∀ s ph base lo data, Inv s ph base lo → lo ≤ base → TreeOk strict Inv base data.length (P.exec s data) ph lo)
    {recv : σ → Nat → Int × Bytes × σ} (hR : RecvOk recv) (hclock : r0.getTime ≠ .null) (T : UInt32) :
    ∀ (fuel : Nat) (last : UInt32) (ph : Phase) (lo : Nat) (evs : List (Ev PLog)) (h : RS P.St σ) (w : World PLog σ),
    Ready P Inv cfg strict b r0 head m0 log0 ph lo evs h w → (received evs).length < r0.bufferLen → msgState evs ≠ .complete →
    ∃ r w' tr, recvLoop P cfg recv T b fuel (received evs).length last h w = (r, w') ∧ w'.log = log0 ++ (evs ++ tr) ∧
      EachEv (EvGood r0.bufferLen) (evs ++ tr) ∧ FrameBuf m0 w'.mem b r0.bufferLen ∧
      ((r = .more ∧ RecvTrace T r0.bufferLen evs last tr none) ∨
       ∃ st total h', r = .ok (st, total, h') ∧ RecvTrace T r0.bufferLen evs last tr (some st) ∧
         Final P cfg strict b r0 head m0 log0 st total (evs ++ tr) h' w') := by
  intro fuel last ph lo evs h w hr hlt hst
  obtain ⟨r, w', tr, e1, e2, e3, e4, _, e5⟩ := recvLoop_spec_fed hP hR hclock T fuel last ph lo evs h w hr hlt hst
  exact ⟨r, w', tr, e1, e2, e3, e4, e5⟩

end CoreHttp

import Verif.Lemmas.RecvBase

/-! # The invariant of receiving, and that every parser callback preserves it -/

namespace CoreHttp
open Spec
variable {σ S : Type}

/-- What the library's callbacks return to the parser, as a function of the event. -/
def policy (opt : UInt32) (head : Bool) : PEv → CbRet
  | .headersComplete _ _ _ _ => if opt &&& DO_NOT_PARSE_BODY_FLAG ≠ 0 then .pause else if head then .noBody else .continue_
  | _ => .continue_

/-- The answer to the end of the header section. -/
def headersAnswer (opt : UInt32) (head : Bool) : CbRet := if opt &&& DO_NOT_PARSE_BODY_FLAG ≠ 0 then .pause else if head then .noBody else .continue_

theorem policy_eq (opt : UInt32) (head : Bool) : policy opt head = answers (headersAnswer opt head) := by
  funext e; cases e <;> rfl

theorem policy_retOk (opt : UInt32) (head : Bool) (e : PEv) : RetOk e (policy opt head e) := by
  cases e <;> simp only [RetOk, policy]
  · exact .inl trivial
  · split
    · simp
    · split <;> simp

/-- Pending header pointers, by phase. -/
def PtrOk (strict : Bool) (span : Option (Nat × Nat)) (lo : Nat) (c : PCtx S) : Phase → Prop
  | .field | .tfield => ∃ f, c.lastField = some f ∧ c.lastValue = none ∧ (∀ p e, span = some (p, e) → e ≤ f) ∧ f + c.lastFieldLen = lo
  | .value | .tvalue => ∃ f x, c.lastField = some f ∧ c.lastValue = some x ∧ (∀ p e, span = some (p, e) → e ≤ f) ∧
      f + c.lastFieldLen ≤ x ∧ x + c.lastValueLen ≤ lo ∧ (strict = true → x + c.lastValueLen = lo)
  | .hdrs | .body | .nobody | .paused => c.lastField = none ∧ c.lastValue = none
  | _ => True

/-- Pending header pointers and what was seen of the pending header. -/
def PendOk (strict : Bool) (stream : Bytes) (pend : Option (Bytes × Option Bytes)) (c : PCtx S) : Prop :=
  match c.lastField, c.lastValue with
  | some f, none => pend = some (slice stream f c.lastFieldLen, none)
  | some f, some x => ∃ vb, pend = some (slice stream f c.lastFieldLen, some vb) ∧ vb.length = c.lastValueLen ∧
      (strict = true → vb = slice stream x c.lastValueLen)
  | none, _ => pend = none

/-- contentLength as reported for a parser content length. -/
def reportLen (cfg : Cfg) (old : Nat) : Option UInt64 → Nat
  | none => old
  | some c => if c ≠ 18446744073709551615 then c.toNat % 2 ^ cfg.sizeBits else 0

/-- respFlags as reported for the connection headers seen. -/
def connFlags (close alive : Bool) : UInt32 :=
  (if close then CONNECTION_CLOSE_FLAG else 0) ||| (if alive then CONNECTION_KEEP_ALIVE_FLAG else 0)

/-- Phases before the end of the header section. -/
def Spec.Phase.early : Phase → Prop
  | .idle | .line | .hdrs | .field | .value => True
  | _ => False

/-- In the first message: the end of the header section is reported after it, and precedes the body. -/
def HEnd (ph : Phase) (lo : Nat) (he : Option Nat) (span : Option (Nat × Nat)) : Prop :=
  (ph.early → he = none) ∧ ∀ n, he = some n → n ≤ lo ∧ ∀ q e, span = some (q, e) → n ≤ q

theorem HEnd.mono {ph ph' : Phase} {lo lo' : Nat} {he : Option Nat} {span : Option (Nat × Nat)} (h : HEnd ph lo he span) (h1 : ph'.early → ph.early)
    (h2 : lo ≤ lo') : HEnd ph' lo' he span :=
  ⟨fun h3 => h.1 (h1 h3), fun n hn => ⟨Nat.le_trans (h.2 n hn).1 h2, (h.2 n hn).2⟩⟩

/-- The invariant. `stream`: everything received; `v`, `span`: meaning and body locations of the parser events so far; `blk`: the response
buffer; `r0`: the response object before the call. -/
structure RInv (cfg : Cfg) (strict : Bool) (r0 : Resp σ) (head : Bool) (stream : Bytes) (ph : Phase) (base lo : Nat) (v : View)
    (span : Option (Nat × Nat)) (h : RS S σ) (blk : Bytes) : Prop where
  bufLen : h.resp.bufferLen = r0.bufferLen
  cb : h.resp.pHeaderParsingCallback = r0.pHeaderParsingCallback
  cbOk : r0.pHeaderParsingCallback ≠ some .null
  gt : h.resp.getTime = r0.getTime
  opt : h.resp.respOptionFlags = r0.respOptionFlags
  pbuf : h.resp.pBuffer = r0.pBuffer
  head : h.ctx.isHeadResponse = head
  bound : h.ctx.bound = true
  room : r0.bufferLen ≤ blk.length
  size : r0.bufferLen < 2 ^ cfg.sizeBits
  fits : stream.length ≤ r0.bufferLen
  lo_le : lo ≤ stream.length
  base_le : base ≤ stream.length
  cur : ∃ c, h.ctx.cur = some c ∧ base ≤ c ∧ c ≤ max lo base ∧
    ∀ p, h.resp.pHeaders = some p → p < c ∧ p + h.resp.headersLen ≤ c
  hlen0 : h.resp.pHeaders = none → h.resp.headersLen = 0
  count : h.resp.headerCount + (if h.ctx.lastField.isSome then 1 else 0) ≤ lo
  ptrs : PtrOk strict span lo h.ctx ph
  bndF : ∀ f, h.ctx.lastField = some f → f + h.ctx.lastFieldLen ≤ lo
  bndV : ∀ f, h.ctx.lastValue = some f → f + h.ctx.lastValueLen ≤ lo
  fieldSeen : h.ctx.lastField ≠ none → h.resp.pHeaders ≠ none
  state : h.ctx.state = v.state
  code : h.resp.statusCode = v.statusCode
  hcount : h.resp.headerCount = v.headers.length
  flags : h.resp.respFlags = connFlags v.connClose v.keepAlive
  clen : h.resp.contentLength = reportLen cfg r0.contentLength v.contentLength
  ahc : h.resp.areHeadersComplete = if v.contentLength.isSome then 1 else r0.areHeadersComplete
  pend : PendOk strict stream v.pending h.ctx
  bodyPtr : h.resp.pBody = span.map Prod.fst
  body : (span = none ∧ v.body = [] ∧ h.resp.bodyLen = 0) ∨
    ∃ p e, span = some (p, e) ∧ p + h.resp.bodyLen ≤ e ∧ e ≤ lo ∧ slice blk p h.resp.bodyLen = v.body
  agree : ∀ i, i < stream.length → (∀ p e, span = some (p, e) → i < p ∨ e ≤ i) → blk[i]? = stream[i]?
  opted : r0.respOptionFlags &&& DO_NOT_PARSE_BODY_FLAG ≠ 0 → (ph.early ∨ ph = .paused) ∧ span = none
  begun : ph ≠ .idle → 1 ≤ v.messages
  done : ph = .complete → v.state = .complete
  one : v.messages ≤ 1 → (ph.early → span = none) ∧
    (∀ p q e, h.resp.pHeaders = some p → span = some (q, e) → h.resp.headersLen = 0 ∨ p + h.resp.headersLen ≤ q)
  hend : v.messages ≤ 1 → HEnd ph lo v.headersEnd span

/-- What a callback may add to the trace: nothing, or one report of a header located in the received data. -/
def HdrEvs (strict : Bool) (stream : Bytes) (r0 : Resp σ) (v v' : View) (hevs : List (Ev PLog)) : Prop :=
  (hevs = [] ∧ (r0.pHeaderParsingCallback = none ∨ v'.headers = v.headers)) ∨
  (∃ fl fb vl vb c, hevs = [.header fl fb vl vb c] ∧ r0.pHeaderParsingCallback.isSome = true ∧ slice stream fl fb.length = fb ∧
    slice stream vl vb.length = vb ∧ fl + fb.length ≤ vl ∧ vl + vb.length ≤ stream.length ∧
    ∃ vb', v'.headers = v.headers ++ [(fb, vb', c)] ∧ vb'.length = vb.length ∧ (strict = true → vb' = vb))

/-- Nothing reported. -/
theorem HdrEvs.none {strict : Bool} {stream : Bytes} {r0 : Resp σ} {v v' : View} (h : v'.headers = v.headers) :
    HdrEvs strict stream r0 v v' [] := .inl ⟨rfl, .inr h⟩

/-- The body span after an event. -/
def spanStep (span : Option (Nat × Nat)) (o : PObs) : Option (Nat × Nat) :=
  match o.ev with
  | .body _ _ => some (match span with | Option.none => o.loc | some p => p.1, o.loc + o.data.length)
  | _ => span

variable {cfg : Cfg} {strict : Bool} {r0 : Resp σ} {head : Bool} {stream : Bytes} {ph : Phase} {base lo : Nat} {v : View}
  {span : Option (Nat × Nat)} {h : RS S σ} {w : World PLog σ} {b : Nat}

/-- processCompleteHeader in a state where a header is complete. -/
theorem processCompleteHeader_some {f x : Nat} (hok : h.resp.pHeaderParsingCallback ≠ some .null) (hf : h.ctx.lastField = some f) (hx : h.ctx.lastValue = some x)
    (hc : h.resp.headerCount < 2 ^ cfg.sizeBits - 1) (h1 : f + h.ctx.lastFieldLen ≤ (w.mem b).length)
    (h2 : x + h.ctx.lastValueLen ≤ (w.mem b).length) :
    ∃ s', processCompleteHeader cfg b h w = (.ok ⟨{ h.resp with headerCount := h.resp.headerCount + 1 },
        { h.ctx with lastField := none, lastFieldLen := 0, lastValue := none, lastValueLen := 0 }⟩,
      ⟨s', w.mem, w.log ++ (if h.resp.pHeaderParsingCallback.isSome then
        [.header f (slice (w.mem b) f h.ctx.lastFieldLen) x (slice (w.mem b) x h.ctx.lastValueLen) h.resp.statusCode] else [])⟩) := by
  unfold processCompleteHeader
  simp only [hf, hx, M.bind_apply, decide_eq_true hc, mAssert_true]
  cases hcb : h.resp.pHeaderParsingCallback with
  | none => exact ⟨w.env, by simp⟩
  | some cb =>
    cases cb with
    | null => exact absurd hcb hok
    | user cb =>
    simp only [M.bind_apply, M.world_apply, M.ofRun_apply, memRead_ok h1, memRead_ok h2, M.setEnv_apply, M.emit_apply, M.pure_apply]
    exact ⟨_, rfl⟩

theorem processCompleteHeader_none (hx : h.ctx.lastField = none ∨ h.ctx.lastValue = none) :
    processCompleteHeader cfg b h w = (.ok h, w) := by
  unfold processCompleteHeader
  rcases hx with hx | hx
  · simp only [hx]; rfl
  · cases hf : h.ctx.lastField <;> simp only [hx] <;> rfl

/-- The conclusion of the step lemmas. -/
def StepOk (cfg : Cfg) (strict : Bool) (r0 : Resp σ) (head : Bool) (stream : Bytes) (ph : Phase) (base lo : Nat) (v : View)
    (span : Option (Nat × Nat)) (b : Nat) (h : RS S σ) (w : World PLog σ) (e : PEv) : Prop :=
  ∃ h' blk' s' hevs, recvCallback cfg b base e h w =
      (.ok (policy r0.respOptionFlags head e, h'), ⟨s', w.mem.set b blk', w.log ++ hevs⟩) ∧
    RInv cfg strict r0 head stream (ph.next e (policy r0.respOptionFlags head e)) base (endPos base lo e)
      (v.step (e.observe base (stream.drop base))) (spanStep span (e.observe base (stream.drop base))) h' blk' ∧
    HdrEvs strict stream r0 v (v.step (e.observe base (stream.drop base))) hevs ∧
    blk'.length = (w.mem b).length ∧ blk'.drop stream.length = (w.mem b).drop stream.length

theorem step_messageBegin (hi : RInv cfg strict r0 head stream ph base lo v span h (w.mem b))
    (hev : EvOk strict base (stream.length - base) ph lo .messageBegin) :
    StepOk cfg strict r0 head stream ph base lo v span b h w .messageBegin := by
  refine ⟨{ h with ctx := { h.ctx with state := .incomplete } }, w.mem b, w.env, [], ?_, ?_, HdrEvs.none rfl, rfl, rfl⟩
  · simp [recvCallback, onMessageBegin, policy, Mem.set_self]
  · have hs : spanStep span (PEv.messageBegin.observe base (stream.drop base)) = span := rfl
    rw [hs]
    exact { hi with
      ptrs := trivial
      state := rfl
      opted := fun h => ⟨.inl trivial, (hi.opted h).2⟩
      begun := fun _ => by simp [View.step, PEv.observe]
      done := fun h => by cases h
      one := by
        intro hm
        have hm' : v.messages = 0 := by simpa [View.step, PEv.observe] using hm
        have hid : ph = .idle := by
          rcases hev with h | h
          · exact h
          · have := hi.begun (by rw [h]; simp); omega
        have := hi.one (by omega)
        exact ⟨fun _ => this.1 (by rw [hid]; trivial), this.2⟩
      hend := by
        intro hm
        have hm' : v.messages = 0 := by simpa [View.step, PEv.observe] using hm
        have hid : ph = .idle := by
          rcases hev with h | h
          · exact h
          · have := hi.begun (by rw [h]; simp); omega
        exact (hi.hend (by omega)).mono (fun _ => by rw [hid]; trivial) (Nat.le_refl _) }

theorem step_messageComplete (hi : RInv cfg strict r0 head stream ph base lo v span h (w.mem b))
    (hev : EvOk strict base (stream.length - base) ph lo .messageComplete) :
    StepOk cfg strict r0 head stream ph base lo v span b h w .messageComplete := by
  refine ⟨{ h with ctx := { h.ctx with state := .complete } }, w.mem b, w.env, [], ?_, ?_, HdrEvs.none rfl, rfl, rfl⟩
  · simp [recvCallback, onMessageComplete, policy, Mem.set_self]
  · have hs : spanStep span (PEv.messageComplete.observe base (stream.drop base)) = span := rfl
    rw [hs]
    have hne : ¬ ph.early ∧ ph ≠ .paused ∧ ph ≠ .idle := by
      rcases hev with h | h | h <;> (rw [h]; simp [Phase.early])
    exact { hi with
      ptrs := trivial
      state := rfl
      opted := fun h => by
        rcases (hi.opted h).1 with h | h
        · exact absurd h hne.1
        · exact absurd h hne.2.1
      begun := fun _ => hi.begun hne.2.2
      done := fun _ => rfl
      one := fun hm => ⟨fun h => h.elim, (hi.one hm).2⟩
      hend := fun hm => (hi.hend hm).mono (fun h => h.elim) (Nat.le_refl _) }

theorem step_status {off len code : Nat} (hi : RInv cfg strict r0 head stream ph base lo v span h (w.mem b))
    (hev : EvOk strict base (stream.length - base) ph lo (.status off len code)) :
    StepOk cfg strict r0 head stream ph base lo v span b h w (.status off len code) := by
  obtain ⟨hph, hsp1, hsp2, hsp3⟩ := hev
  subst hph
  obtain ⟨c, hc, hc1, hc2, hc3⟩ := hi.cur
  have hbl := hi.base_le
  have hlo := hi.lo_le
  have hcnt := hi.count
  refine ⟨⟨{ h.resp with statusCode := code % 65536 },
    { h.ctx with cur := some (base + off + len), lastField := none, lastFieldLen := 0, lastValue := none, lastValueLen := 0 }⟩,
    w.mem b, w.env, [], ?_, ?_, HdrEvs.none rfl, rfl, rfl⟩
  · simp [recvCallback, onStatus, policy, Mem.set_self, hi.bound]
  · have hs : spanStep span ((PEv.status off len code).observe base (stream.drop base)) = span := rfl
    rw [hs]
    exact { hi with
      lo_le := by simp only [endPos]; omega
      cur := ⟨_, rfl, by omega, by simp only [endPos]; omega, fun p hp => by have := hc3 p hp; dsimp only; omega⟩
      count := by simp only [endPos, Option.isSome_none, Bool.false_eq_true, if_false]; omega
      ptrs := trivial
      bndF := fun f hf => by simp at hf
      bndV := fun f hf => by simp at hf
      fieldSeen := fun h => by simp at h
      code := rfl
      pend := rfl
      body := by
        rcases hi.body with h | ⟨p, e, h1, h2, h3, h4⟩
        · exact .inl h
        · exact .inr ⟨p, e, h1, h2, by simp only [endPos]; omega, h4⟩
      opted := fun h => ⟨.inl trivial, (hi.opted h).2⟩
      begun := fun _ => hi.begun (by simp)
      done := fun h => by cases h
      one := fun hm => ⟨fun _ => (hi.one hm).1 trivial, (hi.one hm).2⟩
      hend := fun hm => (hi.hend hm).mono (fun _ => trivial) (by simp only [endPos]; omega) }

theorem step_statusComplete {code : Nat} (hi : RInv cfg strict r0 head stream ph base lo v span h (w.mem b))
    (hev : EvOk strict base (stream.length - base) ph lo (.statusComplete code)) :
    StepOk cfg strict r0 head stream ph base lo v span b h w (.statusComplete code) := by
  obtain rfl : ph = .line := hev
  have hcnt := hi.count
  refine ⟨⟨{ h.resp with statusCode := code % 65536 },
    { h.ctx with lastField := none, lastFieldLen := 0, lastValue := none, lastValueLen := 0 }⟩,
    w.mem b, w.env, [], ?_, ?_, HdrEvs.none rfl, rfl, rfl⟩
  · simp [recvCallback, onStatusComplete, policy, Mem.set_self, hi.bound]
  · have hs : spanStep span ((PEv.statusComplete code).observe base (stream.drop base)) = span := rfl
    rw [hs]
    exact { hi with
      count := by simp only [endPos, Option.isSome_none, Bool.false_eq_true, if_false]; omega
      ptrs := ⟨rfl, rfl⟩
      bndF := fun f hf => by simp at hf
      bndV := fun f hf => by simp at hf
      fieldSeen := fun h => by simp at h
      code := rfl
      pend := rfl
      opted := fun h => ⟨.inl trivial, (hi.opted h).2⟩
      begun := fun _ => hi.begun (by simp)
      done := fun h => by cases h
      one := fun hm => ⟨fun _ => (hi.one hm).1 trivial, (hi.one hm).2⟩
      hend := fun hm => (hi.hend hm).mono (fun _ => trivial) (Nat.le_refl _) }

/-- The block after the memmove of onBody. -/
theorem onBody_block {p bl loc len : Nat} {blk : Bytes} {vb : Bytes} (h3 : loc + len ≤ blk.length)
    (hv : slice blk p bl = vb) (hne : loc > p + bl) :
    ∃ blk', memRead blk loc len = .ok (slice blk loc len) ∧ memWrite blk (p + bl) (slice blk loc len) = .ok blk' ∧
      blk'.length = blk.length ∧ slice blk' p (bl + len) = vb ++ slice blk loc len ∧
      (∀ i, i < p ∨ loc + len ≤ i → blk'[i]? = blk[i]?) := by
  have hl : (slice blk loc len).length = len := slice_length h3
  have hw : p + bl + (slice blk loc len).length ≤ blk.length := by omega
  refine ⟨splice blk (p + bl) (slice blk loc len), memRead_ok h3, memWrite_ok hw, splice_length hw, ?_, ?_⟩
  · rw [← slice_append]
    congr 1
    · rw [← hv]
      apply slice_congr
      intro i _ hi
      rw [splice_getElem? hw, if_pos hi]
    · have := slice_splice hw
      rwa [hl] at this
  · intro i hi
    rw [splice_getElem? hw]
    rcases hi with hi | hi
    · rw [if_pos (by omega)]
    · rw [if_neg (by omega), if_neg (by omega)]

theorem step_body {off len : Nat} (hi : RInv cfg strict r0 head stream ph base lo v span h (w.mem b))
    (hev : EvOk strict base (stream.length - base) ph lo (.body off len)) (hz : stream.length - base = 0 → base < r0.bufferLen) :
    StepOk cfg strict r0 head stream ph base lo v span b h w (.body off len) := by
  obtain ⟨hph, hsp1, hsp2, hsp3⟩ := hev
  subst hph
  obtain ⟨c, hc, hc1, hc2, hc3⟩ := hi.cur
  have hbl := hi.base_le
  have hlo := hi.lo_le
  have hcnt := hi.count
  have hfits := hi.fits
  have hroom := hi.room
  have hsize := hi.size
  have hpt : h.ctx.lastField = none ∧ h.ctx.lastValue = none := hi.ptrs
  have hopt0 : r0.respOptionFlags &&& DO_NOT_PARSE_BODY_FLAG = 0 := by
    by_cases h0 : r0.respOptionFlags &&& DO_NOT_PARSE_BODY_FLAG = 0
    · exact h0
    · rcases (hi.opted h0).1 with h | h
      · exact h.elim
      · cases h
  have hlt : base + off < h.resp.bufferLen := by rw [hi.bufLen]; omega
  have hdl : (((stream.drop base).drop off).take len) = slice stream (base + off) len := slice_slice
  have hdlen : (slice stream (base + off) len).length = len := slice_length (by omega)
  have hso : ∀ e, span = some e → e.2 ≤ lo := by
    intro e he
    rcases hi.body with h | ⟨p, e', h1, _, h3, _⟩
    · rw [h.1] at he; cases he
    · rw [h1] at he; cases he; exact h3
  have hblk : slice (w.mem b) (base + off) len = slice stream (base + off) len := by
    apply slice_congr
    intro i h1 h2
    apply hi.agree i (by omega)
    intro p e he
    have := hso _ he
    right; dsimp only at this; omega
  have hhead : ∀ p q, h.resp.pHeaders = some p → base + off ≤ q → p + h.resp.headersLen ≤ q := by
    intro p q hp hq; have := (hc3 p hp).2; omega
  have hpe : PendOk strict stream v.pending h.ctx := hi.pend
  have hlo' : base + off + len ≤ stream.length := by omega
  cases hspan : span with
  | none =>
    have hpb : h.resp.pBody = none := by rw [hi.bodyPtr, hspan]; rfl
    have hbody : v.body = [] := by
      rcases hi.body with h | ⟨p, e, h1, _⟩
      · exact h.2.1
      · rw [hspan] at h1; cases h1
    refine ⟨⟨{ h.resp with pBody := some (base + off), bodyLen := szAdd cfg 0 len }, { h.ctx with cur := some (base + off + len) }⟩,
      w.mem b, w.env, [], ?_, ?_, HdrEvs.none rfl, rfl, rfl⟩
    · simp [recvCallback, onBody, policy, Mem.set_self, hi.bound, hpb, hlt]
    · have hs : spanStep none ((PEv.body off len).observe base (stream.drop base)) = some (base + off, base + off + len) := by
        simp only [spanStep, PEv.observe, PEv.span, hdl, hdlen]
      rw [hs]
      rw [hspan] at hi
      have hsz : szAdd cfg 0 len = len := by rw [szAdd_eq (by omega)]; omega
      rw [hsz]
      exact { hi with
        lo_le := hlo'
        cur := ⟨_, rfl, by omega, by simp only [endPos]; omega, fun p hp => by have := hc3 p hp; dsimp only; omega⟩
        count := by simp only [endPos]; omega
        ptrs := hpt
        bndF := fun f hf => by rw [hpt.1] at hf; cases hf
        bndV := fun f hf => by rw [hpt.2] at hf; cases hf
        pend := hpe
        bodyPtr := rfl
        body := .inr ⟨_, _, rfl, Nat.le_refl _, Nat.le_refl _, by
          simp only [View.step, PEv.observe, PEv.span, hdl, hbody, List.nil_append]; exact hblk⟩
        agree := fun i hi1 hi2 => hi.agree i hi1 (by simp)
        opted := fun h => absurd hopt0 h
        begun := fun _ => hi.begun (by simp)
        done := fun h => by cases h
        one := fun hm => ⟨fun h => h.elim, fun p q e hp hq => .inr (by
          simp only [Option.some.injEq, Prod.mk.injEq] at hq; exact hhead p q hp (by omega))⟩
        hend := fun hm => ⟨fun h => h.elim, fun n hn => ⟨by have := ((hi.hend hm).2 n hn).1; simp only [endPos]; omega, fun q e hq => by
          have := ((hi.hend hm).2 n hn).1
          simp only [Option.some.injEq, Prod.mk.injEq] at hq; omega⟩⟩ }
  | some pe =>
    obtain ⟨p, e⟩ := pe
    have hpb : h.resp.pBody = some p := by rw [hi.bodyPtr, hspan]; rfl
    have hbody : p + h.resp.bodyLen ≤ e ∧ e ≤ lo ∧ slice (w.mem b) p h.resp.bodyLen = v.body := by
      rcases hi.body with h | ⟨p', e', h1, h2⟩
      · rw [hspan] at h; cases h.1
      · rw [hspan] at h1; cases h1; exact h2
    obtain ⟨hb1, hb2, hb3⟩ := hbody
    have hs : spanStep (some (p, e)) ((PEv.body off len).observe base (stream.drop base)) = some (p, base + off + len) := by
      simp only [spanStep, PEv.observe, PEv.span, hdl, hdlen]
    have hsz : szAdd cfg h.resp.bodyLen len = h.resp.bodyLen + len := szAdd_eq (by omega)
    have hv : (v.step ((PEv.body off len).observe base (stream.drop base))).body = v.body ++ slice stream (base + off) len := by
      simp only [View.step, PEv.observe, PEv.span, hdl]
    -- the invariant for any block with these properties
    have key : ∀ blk' : Bytes, blk'.length = (w.mem b).length →
        slice blk' p (h.resp.bodyLen + len) = v.body ++ slice stream (base + off) len →
        (∀ i, i < p ∨ base + off + len ≤ i → blk'[i]? = (w.mem b)[i]?) →
        RInv cfg strict r0 head stream (Phase.body.next (.body off len) (policy r0.respOptionFlags head (.body off len))) base
          (endPos base lo (.body off len)) (v.step ((PEv.body off len).observe base (stream.drop base)))
          (some (p, base + off + len))
          (⟨{ h.resp with pBody := some p, bodyLen := h.resp.bodyLen + len }, { h.ctx with cur := some (base + off + len) }⟩ : RS S σ)
          blk' := by
      intro blk' hl hsl hag
      rw [hspan] at hi
      exact { hi with
        room := by rw [hl]; exact hroom
        lo_le := hlo'
        cur := ⟨_, rfl, by omega, by simp only [endPos]; omega, fun p hp => by have := hc3 p hp; dsimp only; omega⟩
        count := by simp only [endPos]; omega
        ptrs := hpt
        bndF := fun f hf => by rw [hpt.1] at hf; cases hf
        bndV := fun f hf => by rw [hpt.2] at hf; cases hf
        pend := hpe
        bodyPtr := rfl
        body := .inr ⟨_, _, rfl, by dsimp only; omega, Nat.le_refl _, by rw [hv]; exact hsl⟩
        agree := fun i hi1 hi2 => by
          have h2 := hi2 p _ rfl
          rw [hag i h2]
          apply hi.agree i hi1
          intro p' e' he
          cases he
          omega
        opted := fun h => absurd hopt0 h
        begun := fun _ => hi.begun (by simp)
        done := fun h => by cases h
        one := fun hm => ⟨fun h => h.elim, fun p' q e' hp hq => by
          simp only [Option.some.injEq, Prod.mk.injEq] at hq
          obtain ⟨rfl, _⟩ := hq
          exact (hi.one hm).2 p' _ e hp rfl⟩
        hend := fun hm => ⟨fun h => h.elim, fun n hn => ⟨by have := ((hi.hend hm).2 n hn).1; simp only [endPos]; omega, fun q e' hq => by
          simp only [Option.some.injEq, Prod.mk.injEq] at hq
          obtain ⟨rfl, _⟩ := hq
          exact ((hi.hend hm).2 n hn).2 _ _ rfl⟩⟩ }
    by_cases hgt : base + off > p + h.resp.bodyLen
    · obtain ⟨blk', hr, hwr, hl, hsl, hag⟩ := onBody_block (len := len) (by omega) hb3 hgt
      refine ⟨⟨{ h.resp with pBody := some p, bodyLen := szAdd cfg h.resp.bodyLen len }, { h.ctx with cur := some (base + off + len) }⟩,
        blk', w.env, [], ?_, ?_, HdrEvs.none rfl, hl, ?_⟩
      · simp [recvCallback, onBody, policy, hi.bound, hpb, hlt, hgt, hr, hwr]
      · rw [hs, hsz]
        exact key blk' hl (by rw [hsl, hblk]) hag
      · apply List.ext_getElem?
        intro i
        rw [List.getElem?_drop, List.getElem?_drop]
        exact hag _ (by omega)
    · refine ⟨⟨{ h.resp with pBody := some p, bodyLen := szAdd cfg h.resp.bodyLen len }, { h.ctx with cur := some (base + off + len) }⟩,
        w.mem b, w.env, [], ?_, ?_, HdrEvs.none rfl, rfl, rfl⟩
      · simp [recvCallback, onBody, policy, hi.bound, hpb, hlt, hgt, Mem.set_self]
      · rw [hs, hsz]
        refine key _ rfl ?_ (fun _ _ => rfl)
        rw [← slice_append, hb3, ← hblk]
        congr 2; omega

theorem next_value (ph : Phase) (off len : Nat) (opt : UInt32) (head : Bool)
    (hph : ph = .field ∨ ph = .value ∨ ph = .tfield ∨ ph = .tvalue) {c : PCtx S}
    (h : PtrOk strict span lo c .value) : PtrOk strict span lo c (ph.next (.headerValue off len) (policy opt head (.headerValue off len))) := by
  rcases hph with rfl | rfl | rfl | rfl <;> exact h

theorem step_headerValue {off len : Nat} (hi : RInv cfg strict r0 head stream ph base lo v span h (w.mem b))
    (hev : EvOk strict base (stream.length - base) ph lo (.headerValue off len)) :
    StepOk cfg strict r0 head stream ph base lo v span b h w (.headerValue off len) := by
  obtain ⟨⟨hsp1, hsp2, hsp3⟩, hph, hcont⟩ := hev
  obtain ⟨c, hc, hc1, hc2, hc3⟩ := hi.cur
  have hbl := hi.base_le
  have hlo := hi.lo_le
  have hcnt := hi.count
  have hfits := hi.fits
  have hsize := hi.size
  have hdl : (((stream.drop base).drop off).take len) = slice stream (base + off) len := slice_slice
  have hs : spanStep span ((PEv.headerValue off len).observe base (stream.drop base)) = span := rfl
  have hlo' : base + off + len ≤ stream.length := by omega
  have hnearly : ph.next (.headerValue off len) (policy r0.respOptionFlags head (.headerValue off len)) ≠ .idle := by
    rcases hph with rfl | rfl | rfl | rfl <;> simp [Phase.next, policy]
  have hearly : (ph.next (.headerValue off len) (policy r0.respOptionFlags head (.headerValue off len))).early → ph.early := by
    rcases hph with rfl | rfl | rfl | rfl <;> simp [Phase.next, policy, Phase.early]
  have hearly2 : ph.early ∨ ph = .paused → (ph.next (.headerValue off len) (policy r0.respOptionFlags head (.headerValue off len))).early := by
    rcases hph with rfl | rfl | rfl | rfl <;> simp [Phase.next, policy, Phase.early]
  have hidle : ph ≠ .idle := by rcases hph with rfl | rfl | rfl | rfl <;> simp
  by_cases hf0 : ph = .field ∨ ph = .tfield
  · have hpt : PtrOk strict span lo h.ctx .field := by
      have := hi.ptrs
      rcases hf0 with rfl | rfl <;> exact this
    obtain ⟨f, hf, hx, hsf, hfl⟩ := hpt
    have hpend : v.pending = some (slice stream f h.ctx.lastFieldLen, none) := by
      have := hi.pend
      simpa only [PendOk, hf, hx] using this
    refine ⟨⟨h.resp, { h.ctx with cur := some (base + off + len), lastValue := some (base + off), lastValueLen := len }⟩,
      w.mem b, w.env, [], ?_, ?_, HdrEvs.none rfl, rfl, rfl⟩
    · simp [recvCallback, onHeaderValue, policy, Mem.set_self, hf, hx]
    · rw [hs]
      exact { hi with
        lo_le := hlo'
        cur := ⟨_, rfl, by omega, by simp only [endPos]; omega, fun p hp => by have := hc3 p hp; dsimp only; omega⟩
        count := by simp only [endPos]; omega
        ptrs := next_value _ _ _ _ _ hph ⟨f, base + off, hf, rfl, hsf, by dsimp only; omega, by simp only [endPos]; omega,
          fun _ => by simp only [endPos]⟩
        bndF := fun f' hf' => by have := hi.bndF f' hf'; simp only [endPos]; omega
        bndV := fun f' hf' => by simp only [Option.some.injEq] at hf'; subst hf'; simp only [endPos]; omega
        pend := by
          simp only [PendOk, hf, View.step, PEv.observe, PEv.span, hpend, hdl]
          exact ⟨_, rfl, slice_length (by omega), fun _ => rfl⟩
        body := by
          rcases hi.body with h | ⟨p, e, h1, h2, h3, h4⟩
          · exact .inl h
          · exact .inr ⟨p, e, h1, h2, by simp only [endPos]; omega, h4⟩
        opted := fun h => ⟨.inl (hearly2 (hi.opted h).1), (hi.opted h).2⟩
        begun := fun _ => hi.begun hidle
        done := fun h => absurd h (by rcases hph with rfl | rfl | rfl | rfl <;> simp [Phase.next, policy])
        one := fun hm => ⟨fun h => (hi.one hm).1 (hearly h), (hi.one hm).2⟩
        hend := fun hm => (hi.hend hm).mono hearly (by simp only [endPos]; omega) }
  · have hv0 : ph = .value ∨ ph = .tvalue := by
      rcases hph with rfl | rfl | rfl | rfl <;> simp_all
    have hpt : PtrOk strict span lo h.ctx .value := by
      have := hi.ptrs
      rcases hv0 with rfl | rfl <;> exact this
    obtain ⟨f, x, hf, hx, hsf, hfl, hxl, hst⟩ := hpt
    obtain ⟨vb, hpend, hvl, hvb⟩ : ∃ vb, v.pending = some (slice stream f h.ctx.lastFieldLen, some vb) ∧
        vb.length = h.ctx.lastValueLen ∧ (strict = true → vb = slice stream x h.ctx.lastValueLen) := by
      have := hi.pend
      simpa only [PendOk, hf, hx] using this
    have hsz : szAdd cfg h.ctx.lastValueLen len = h.ctx.lastValueLen + len := szAdd_eq (by omega)
    refine ⟨⟨h.resp, { h.ctx with cur := some (base + off + len), lastValueLen := h.ctx.lastValueLen + len }⟩,
      w.mem b, w.env, [], ?_, ?_, HdrEvs.none rfl, rfl, rfl⟩
    · simp [recvCallback, onHeaderValue, policy, Mem.set_self, hf, hx, hsz]
    · rw [hs]
      exact { hi with
        lo_le := hlo'
        cur := ⟨_, rfl, by omega, by simp only [endPos]; omega, fun p hp => by have := hc3 p hp; dsimp only; omega⟩
        count := by simp only [endPos]; omega
        ptrs := next_value _ _ _ _ _ hph ⟨f, x, hf, hx, hsf, hfl, by simp only [endPos]; omega,
          fun h0 => by have := hst h0; have := hcont h0 hv0; simp only [endPos]; omega⟩
        bndF := fun f' hf' => by have := hi.bndF f' hf'; simp only [endPos]; omega
        bndV := fun f' hf' => by have := hi.bndV f' hf'; simp only [endPos]; omega
        pend := by
          simp only [PendOk, hf, hx, View.step, PEv.observe, PEv.span, hpend, hdl]
          refine ⟨_, rfl, by rw [List.length_append, hvl, slice_length (by omega)], fun h0 => ?_⟩
          rw [hvb h0, ← slice_append]
          have h1 := hst h0
          have h2 : base + off = lo := by have := hcont h0 hv0; omega
          rw [h1, h2]

        body := by
          rcases hi.body with h | ⟨p, e, h1, h2, h3, h4⟩
          · exact .inl h
          · exact .inr ⟨p, e, h1, h2, by simp only [endPos]; omega, h4⟩
        opted := fun h => ⟨.inl (hearly2 (hi.opted h).1), (hi.opted h).2⟩
        begun := fun _ => hi.begun hidle
        done := fun h => absurd h (by rcases hph with rfl | rfl | rfl | rfl <;> simp [Phase.next, policy])
        one := fun hm => ⟨fun h => (hi.one hm).1 (hearly h), (hi.one hm).2⟩
        hend := fun hm => (hi.hend hm).mono hearly (by simp only [endPos]; omega) }

@[simp] theorem flush_headersEnd (v : View) : v.flush.headersEnd = v.headersEnd := by unfold View.flush; split <;> rfl
@[simp] theorem flush_messages (v : View) : v.flush.messages = v.messages := by unfold View.flush; split <;> rfl
@[simp] theorem flush_state (v : View) : v.flush.state = v.state := by unfold View.flush; split <;> rfl
@[simp] theorem flush_code (v : View) : v.flush.statusCode = v.statusCode := by unfold View.flush; split <;> rfl
@[simp] theorem flush_body (v : View) : v.flush.body = v.body := by unfold View.flush; split <;> rfl
@[simp] theorem flush_cl (v : View) : v.flush.contentLength = v.contentLength := by unfold View.flush; split <;> rfl
@[simp] theorem flush_cc (v : View) : v.flush.connClose = v.connClose := by unfold View.flush; split <;> rfl
@[simp] theorem flush_ka (v : View) : v.flush.keepAlive = v.keepAlive := by unfold View.flush; split <;> rfl

/-- processCompleteHeader where a header line may have ended. -/
theorem flush_step (hi : RInv cfg strict r0 head stream ph base lo v span h (w.mem b))
    (hph : ph = .hdrs ∨ ph = .value ∨ ph = .body ∨ ph = .tvalue) {g : RS S σ}
    (hg1 : g.resp.pHeaderParsingCallback = h.resp.pHeaderParsingCallback) (hg2 : g.resp.statusCode = h.resp.statusCode)
    (hg3 : g.resp.headerCount = h.resp.headerCount)
    (hg4 : g.ctx.lastField = h.ctx.lastField ∧ g.ctx.lastFieldLen = h.ctx.lastFieldLen ∧ g.ctx.lastValue = h.ctx.lastValue ∧
      g.ctx.lastValueLen = h.ctx.lastValueLen) :
    ∃ fl vl s' hevs, processCompleteHeader cfg b g w = (.ok ⟨{ g.resp with headerCount := v.flush.headers.length },
        { g.ctx with lastField := none, lastFieldLen := fl, lastValue := none, lastValueLen := vl }⟩, ⟨s', w.mem, w.log ++ hevs⟩) ∧
      HdrEvs strict stream r0 v v.flush hevs ∧ v.flush.pending = none ∧ v.flush.headers.length ≤ lo := by
  obtain ⟨hg4a, hg4b, hg4c, hg4d⟩ := hg4
  have hcnt := hi.count
  have hlo := hi.lo_le
  have hfits := hi.fits
  have hroom := hi.room
  have hsize := hi.size
  by_cases hv0 : ph = .value ∨ ph = .tvalue
  · have hpt : PtrOk strict span lo h.ctx .value := by
      have := hi.ptrs
      rcases hv0 with rfl | rfl <;> exact this
    obtain ⟨f, x, hf, hx, hsf, hfl, hxl, hst⟩ := hpt
    obtain ⟨vb, hpend, hvl, hvb⟩ : ∃ vb, v.pending = some (slice stream f h.ctx.lastFieldLen, some vb) ∧
        vb.length = h.ctx.lastValueLen ∧ (strict = true → vb = slice stream x h.ctx.lastValueLen) := by
      have := hi.pend
      simpa only [PendOk, hf, hx] using this
    have hflush : v.flush = { v with headers := v.headers ++ [(slice stream f h.ctx.lastFieldLen, vb, v.statusCode)], pending := none } := by
      unfold View.flush; rw [hpend]
    rw [hf] at hcnt
    simp only [Option.isSome_some, if_true] at hcnt
    have hagree : ∀ i, f ≤ i → i < stream.length → (w.mem b)[i]? = stream[i]? := by
      intro i h1 h2
      apply hi.agree i h2
      intro p e he
      have := hsf p e he
      right; omega
    have hsl1 : slice (w.mem b) f h.ctx.lastFieldLen = slice stream f h.ctx.lastFieldLen :=
      slice_congr fun i h1 h2 => hagree i h1 (by omega)
    have hsl2 : slice (w.mem b) x h.ctx.lastValueLen = slice stream x h.ctx.lastValueLen :=
      slice_congr fun i h1 h2 => hagree i (by omega) (by omega)
    obtain ⟨s', e⟩ := processCompleteHeader_some (cfg := cfg) (h := g) (w := w) (b := b) (f := f) (x := x) (by rw [hg1, hi.cb]; exact hi.cbOk)
      (by rw [hg4a, hf])
      (by rw [hg4c, hx]) (by rw [hg3]; omega) (by rw [hg4b]; omega) (by rw [hg4d]; omega)
    refine ⟨0, 0, s', (if g.resp.pHeaderParsingCallback.isSome then [.header f (slice (w.mem b) f g.ctx.lastFieldLen) x
      (slice (w.mem b) x g.ctx.lastValueLen) g.resp.statusCode] else []), ?_, ?_, by rw [hflush], ?_⟩
    · rw [e]
      simp only [hflush, List.length_append, List.length_cons, List.length_nil, hg3, hi.hcount]
    · rw [hg4b, hg4d, hsl1, hsl2, hg1, hi.cb, hg2, hi.code]
      cases hcb : r0.pHeaderParsingCallback with
      | none => exact .inl ⟨by simp, .inl hcb⟩
      | some cb =>
        refine .inr ⟨f, slice stream f h.ctx.lastFieldLen, x, slice stream x h.ctx.lastValueLen, v.statusCode, by simp, by simp [hcb], ?_, ?_, ?_, ?_,
          ?_⟩
        · rw [slice_length (by omega)]
        · rw [slice_length (by omega)]
        · rw [slice_length (by omega)]; exact hfl
        · rw [slice_length (by omega)]; omega
        · exact ⟨vb, (by rw [hflush]), (by rw [hvl, slice_length (by omega)]), hvb⟩
    · rw [hflush]; simp only [List.length_append, List.length_cons, List.length_nil, ← hi.hcount]; omega
  · have hpt : h.ctx.lastField = none ∧ h.ctx.lastValue = none := by
      have := hi.ptrs
      rcases hph with rfl | rfl | rfl | rfl
      · exact this
      · simp at hv0
      · exact this
      · simp at hv0
    have hpend : v.pending = none := by
      have := hi.pend
      simpa only [PendOk, hpt.1] using this
    have hflush : v.flush = v := by unfold View.flush; rw [hpend]
    refine ⟨g.ctx.lastFieldLen, g.ctx.lastValueLen, w.env, [], ?_, ?_, by rw [hflush, hpend], by rw [hflush, ← hi.hcount]; omega⟩
    · rw [processCompleteHeader_none (.inl (by rw [hg4a, hpt.1])), hflush, ← hi.hcount, ← hg3]
      have e1 : g.ctx.lastField = none := by rw [hg4a, hpt.1]
      have e2 : g.ctx.lastValue = none := by rw [hg4c, hpt.2]
      obtain ⟨gr, gc⟩ := g
      obtain ⟨c1, c2, c3, c4, c5, c6, c7, c8, c9⟩ := gc
      dsimp only at e1 e2
      subst e1 e2
      simp
    · rw [hflush]; exact HdrEvs.none rfl

theorem next_field (ph : Phase) (off len : Nat) (opt : UInt32) (head : Bool) {c : PCtx S}
    (h : PtrOk strict span lo c .field) : PtrOk strict span lo c (ph.next (.headerField off len) (policy opt head (.headerField off len))) := by
  simp only [Phase.next]
  split <;> exact h

theorem spanEnd_le (hi : RInv cfg strict r0 head stream ph base lo v span h (w.mem b)) : ∀ p e, span = some (p, e) → e ≤ lo := by
  intro p e he
  rcases hi.body with h | ⟨p', e', h1, _, h3, _⟩
  · rw [h.1] at he; cases he
  · rw [h1] at he; cases he; exact h3

theorem step_headerField {off len : Nat} (hi : RInv cfg strict r0 head stream ph base lo v span h (w.mem b))
    (hev : EvOk strict base (stream.length - base) ph lo (.headerField off len)) :
    StepOk cfg strict r0 head stream ph base lo v span b h w (.headerField off len) := by
  obtain ⟨⟨hsp1, hsp2, hsp3⟩, hph⟩ := hev
  obtain ⟨c, hc, hc1, hc2, hc3⟩ := hi.cur
  have hbl := hi.base_le
  have hlo := hi.lo_le
  have hcnt := hi.count
  have hfits := hi.fits
  have hsize := hi.size
  have hspe := spanEnd_le hi
  have hdl : (((stream.drop base).drop off).take len) = slice stream (base + off) len := slice_slice
  have hs : spanStep span ((PEv.headerField off len).observe base (stream.drop base)) = span := rfl
  have hlo' : base + off + len ≤ stream.length := by omega
  have hcases : (ph = .hdrs ∨ ph = .value ∨ ph = .body ∨ ph = .tvalue) ∨ (ph = .field ∨ ph = .tfield) := by
    rcases hph with h | h
    · exact .inl h.1
    · exact .inr h.1
  have hearly : (ph.next (.headerField off len) (policy r0.respOptionFlags head (.headerField off len))).early → ph.early := by
    rcases hcases with (rfl | rfl | rfl | rfl) | (rfl | rfl) <;> simp [Phase.next, Phase.early]
  have hearly2 : ph.early ∨ ph = .paused → (ph.next (.headerField off len) (policy r0.respOptionFlags head (.headerField off len))).early := by
    rcases hcases with (rfl | rfl | rfl | rfl) | (rfl | rfl) <;> simp [Phase.next, Phase.early]
  have hidle : ph ≠ .idle := by rcases hcases with (rfl | rfl | rfl | rfl) | (rfl | rfl) <;> simp
  have hA : mAssert 723 h.ctx.bound w = (.ok (), w) := by rw [hi.bound]; rfl
  generalize hpH : headersStart h.resp.pHeaders (base + off) = pH
  have hpH1 : ∀ p, pH = some p → p ≤ base + off ∧ (len = 0 → h.resp.pHeaders ≠ none → p < base + off) ∧
      (h.resp.pHeaders ≠ none → p < base + off ∧ p + h.resp.headersLen ≤ base + off) ∧ p + h.resp.headersLen ≤ base + off := by
    intro p hp
    cases hq : h.resp.pHeaders with
    | none =>
      rw [hq] at hpH
      have h0 := hi.hlen0 hq
      subst hpH
      cases hp
      refine ⟨Nat.le_refl _, by simp, by simp, by omega⟩
    | some q =>
      rw [hq] at hpH
      subst hpH
      cases hp
      have := hc3 p hq
      refine ⟨by omega, fun _ _ => by omega, fun _ => by omega, by omega⟩
  have hpHn : pH ≠ none := by
    rw [← hpH]
    cases h.resp.pHeaders <;> simp [headersStart]
  have hone : ∀ hl : Nat, v.messages ≤ 1 → (ph.early → span = none) ∧
      (∀ p q e, pH = some p → span = some (q, e) → h.resp.headersLen = 0 ∨ p + h.resp.headersLen ≤ q) := by
    intro _ hm
    refine ⟨(hi.one hm).1, ?_⟩
    intro p q e hp hq
    cases hq0 : h.resp.pHeaders with
    | none => exact .inl (hi.hlen0 hq0)
    | some q0 =>
      rw [hq0] at hpH
      subst hpH
      exact (hi.one hm).2 p q e (by rw [hq0]; exact hp) hq
  by_cases hf0 : ph = .field ∨ ph = .tfield
  · -- continuation of a field name
    have hcont : off = 0 ∧ base = lo := by
      rcases hph with ⟨h, _⟩ | ⟨_, h⟩
      · rcases hf0 with rfl | rfl <;> simp at h
      · exact h
    obtain ⟨rfl, hbase⟩ := hcont
    have hpt : PtrOk strict span lo h.ctx .field := by
      have := hi.ptrs
      rcases hf0 with rfl | rfl <;> exact this
    obtain ⟨f, hf, hx, hsf, hfl⟩ := hpt
    have hpend : v.pending = some (slice stream f h.ctx.lastFieldLen, none) := by
      have := hi.pend
      simpa only [PendOk, hf, hx] using this
    have hflush : v.flush = v := by unfold View.flush; rw [hpend]
    have hov : h.ctx.lastFieldLen + len ≤ 2 ^ cfg.sizeBits - 1 := by omega
    -- pHeaders is set already: count shows a field was seen; only p < cur matters
    have hvs : (v.step ((PEv.headerField 0 len).observe base (stream.drop base))) =
        { v with pending := some (slice stream f h.ctx.lastFieldLen ++ slice stream (base + 0) len, none) } := by
      simp only [View.step, PEv.observe, PEv.span, hdl, hflush, hpend]
    by_cases hpn : h.resp.pHeaders = none ∧ len = 0
    · -- cannot happen, but harmless: the invariant is not strong enough to exclude it
      exact absurd hpn (by
        rintro ⟨h1, _⟩
        exact absurd h1 (hi.fieldSeen (by rw [hf]; simp)))
    · refine ⟨⟨{ h.resp with pHeaders := pH }, { h.ctx with cur := some (base + 0 + len), lastFieldLen := h.ctx.lastFieldLen + len }⟩,
        w.mem b, w.env, [], ?_, ?_, HdrEvs.none (by rw [hvs]), rfl, rfl⟩
      · simp only [recvCallback, onHeaderField, M.bind_apply, hA, hpH]
        rw [processCompleteHeader_none (h := ⟨{ h.resp with pHeaders := pH }, { h.ctx with cur := some (base + 0 + len) }⟩) (.inr hx)]
        simp [policy, Mem.set_self, hf, hov]
      · rw [hs, hvs]
        exact { hi with
          lo_le := hlo'
          cur := ⟨_, rfl, by omega, by simp only [endPos]; omega, fun p hp => by
            have := hpH1 p hp
            dsimp only
            refine ⟨?_, by omega⟩
            by_cases hn : h.resp.pHeaders = none
            · have : len ≠ 0 := fun h => hpn ⟨hn, h⟩
              omega
            · have := this.2.2.1 hn
              omega⟩
          hlen0 := fun h => absurd h hpHn
          count := by simp only [endPos]; omega
          ptrs := next_field _ _ _ _ _ ⟨f, hf, hx, hsf, by simp only [endPos]; omega⟩
          bndF := fun f' hf' => by
            have := hi.bndF f' hf'
            simp only [endPos]; omega
          bndV := fun f' hf' => by have := hi.bndV f' hf'; simp only [endPos]; omega
          fieldSeen := fun _ => hpHn
          pend := by
            simp only [PendOk, hf, hx]
            rw [← slice_append, hfl, ← hbase, Nat.add_zero]
          body := by
            rcases hi.body with h | ⟨p, e, h1, h2, h3, h4⟩
            · exact .inl h
            · exact .inr ⟨p, e, h1, h2, by simp only [endPos]; omega, h4⟩
          opted := fun h => ⟨.inl (hearly2 (hi.opted h).1), (hi.opted h).2⟩
          begun := fun _ => hi.begun hidle
          done := fun h => absurd h (by simp only [Phase.next]; split <;> simp)
          one := fun hm => ⟨fun h => (hi.one hm).1 (hearly h), (hone 0 hm).2⟩
          hend := fun hm => (hi.hend hm).mono hearly (by simp only [endPos]; omega) }
  · -- a new header
    have hnew : (ph = .hdrs ∨ ph = .value ∨ ph = .body ∨ ph = .tvalue) ∧ 0 < len := by
      rcases hph with h | h
      · exact h
      · exact absurd h.1 hf0
    obtain ⟨hph', hlen⟩ := hnew
    obtain ⟨fl, vl, s', hevs, epch, hh, hpn, hcl⟩ := flush_step hi hph'
      (g := ⟨{ h.resp with pHeaders := pH }, { h.ctx with cur := some (base + off + len) }⟩) rfl rfl rfl ⟨rfl, rfl, rfl, rfl⟩
    have hvs : (v.step ((PEv.headerField off len).observe base (stream.drop base))) =
        { v.flush with pending := some (slice stream (base + off) len, none) } := by
      simp only [View.step, PEv.observe, PEv.span, hdl, hpn]
    refine ⟨⟨{ h.resp with pHeaders := pH, headerCount := v.flush.headers.length },
      { h.ctx with cur := some (base + off + len), lastField := some (base + off), lastFieldLen := len, lastValue := none,
                   lastValueLen := vl }⟩, w.mem b, s', hevs, ?_, ?_, ?_, rfl, rfl⟩
    · simp only [recvCallback, onHeaderField, M.bind_apply, hA, hpH]
      rw [epch]
      simp [policy, Mem.set_self]
    · rw [hs, hvs]
      exact { hi with
        lo_le := hlo'
        cur := ⟨_, rfl, by omega, by simp only [endPos]; omega, fun p hp => by
          have := hpH1 p hp
          dsimp only
          omega⟩
        hlen0 := fun h => absurd h hpHn
        count := by simp only [endPos, Option.isSome_some, if_true]; omega
        ptrs := next_field _ _ _ _ _ ⟨base + off, rfl, rfl, fun p e he => by have := hspe p e he; omega, by simp only [endPos]⟩
        bndF := fun f' hf' => by simp only [Option.some.injEq] at hf'; subst hf'; simp only [endPos]; omega
        bndV := fun f' hf' => by simp at hf'
        fieldSeen := fun _ => hpHn
        state := by simp only [flush_state]; exact hi.state
        code := by simp only [flush_code]; exact hi.code
        hcount := rfl
        flags := by simp only [flush_cc, flush_ka]; exact hi.flags
        clen := by simp only [flush_cl]; exact hi.clen
        ahc := by simp only [flush_cl]; exact hi.ahc
        pend := rfl
        body := by
          simp only [flush_body]
          rcases hi.body with h | ⟨p, e, h1, h2, h3, h4⟩
          · exact .inl h
          · exact .inr ⟨p, e, h1, h2, by simp only [endPos]; omega, h4⟩
        opted := fun h => ⟨.inl (hearly2 (hi.opted h).1), (hi.opted h).2⟩
        begun := fun _ => by simp only [flush_messages]; exact hi.begun hidle
        done := fun h => absurd h (by simp only [Phase.next]; split <;> simp)
        one := fun hm => by
          simp only [flush_messages] at hm
          exact ⟨fun h => (hi.one hm).1 (hearly h), (hone 0 hm).2⟩
        hend := fun hm => by
          simp only [flush_messages, flush_headersEnd] at hm ⊢
          exact (hi.hend hm).mono hearly (by simp only [endPos]; omega) }
    · rw [hvs]; exact hh

theorem connFlags_or (a c a' c' : Bool) : (connFlags a c ||| (if a' then CONNECTION_CLOSE_FLAG else 0)) |||
    (if c' then CONNECTION_KEEP_ALIVE_FLAG else 0) = connFlags (a || a') (c || c') := by
  cases a <;> cases c <;> cases a' <;> cases c' <;> decide

theorem step_headersComplete {at_ : Nat} {cl : UInt64} {cc ka : Bool} (hi : RInv cfg strict r0 head stream ph base lo v span h (w.mem b))
    (hev : EvOk strict base (stream.length - base) ph lo (.headersComplete at_ cl cc ka)) :
    StepOk cfg strict r0 head stream ph base lo v span b h w (.headersComplete at_ cl cc ka) := by
  obtain ⟨hph, hat1, hat2, hat3⟩ := hev
  obtain ⟨c, hc, hc1, hc2, hc3⟩ := hi.cur
  have hbl := hi.base_le
  have hlo := hi.lo_le
  have hcnt := hi.count
  have hfits := hi.fits
  have hsize := hi.size
  have hs : spanStep span ((PEv.headersComplete at_ cl cc ka).observe base (stream.drop base)) = span := rfl
  have hidle : ph ≠ .idle := by rcases hph with rfl | rfl <;> simp
  have hphearly : ph.early := by rcases hph with rfl | rfl <;> trivial
  have hph4 : ph = .hdrs ∨ ph = .value ∨ ph = .body ∨ ph = .tvalue := by
    rcases hph with h | h
    · exact .inl h
    · exact .inr (.inl h)
  have hcL : c < h.resp.bufferLen := by rw [hi.bufLen]; omega
  generalize hpol : policy r0.respOptionFlags head (.headersComplete at_ cl cc ka) = ret
  have hnext : ph.next (.headersComplete at_ cl cc ka) ret = .body ∨ ph.next (.headersComplete at_ cl cc ka) ret = .nobody ∨
      ph.next (.headersComplete at_ cl cc ka) ret = .paused := by
    cases ret <;> simp [Phase.next]
    · simp only [policy] at hpol
      split at hpol
      · cases hpol
      · split at hpol <;> cases hpol
  have hopt : r0.respOptionFlags &&& DO_NOT_PARSE_BODY_FLAG ≠ 0 → ph.next (.headersComplete at_ cl cc ka) ret = .paused := by
    intro h0
    simp only [policy, if_pos h0] at hpol
    subst hpol; rfl
  -- headersLen
  obtain ⟨hl, hlr, hl1, hl2⟩ : ∃ hl, (∀ w : World PLog σ, headersLength h.resp.pHeaders c w = (.ok hl, w)) ∧ (∀ p, h.resp.pHeaders = some p → p + hl = c) ∧
      (h.resp.pHeaders = none → hl = 0) := by
    cases hq : h.resp.pHeaders with
    | none => exact ⟨0, fun w => rfl, by simp, fun _ => rfl⟩
    | some p =>
      have := (hc3 p hq).1
      refine ⟨c - p, fun w => ?_, ?_, by simp⟩
      · simp [headersLength, this]
      · intro p' hp'; cases hp'; omega
  obtain ⟨fl, vl, s', hevs, epch, hh, hpn, hcl⟩ := flush_step hi hph4
    (g := ⟨{ h.resp with
      areHeadersComplete := 1
      headersLen := hl
      contentLength := if cl ≠ 18446744073709551615 then cl.toNat % 2 ^ cfg.sizeBits else 0
      respFlags := (h.resp.respFlags ||| (if cc then CONNECTION_CLOSE_FLAG else 0))
        ||| (if ka then CONNECTION_KEEP_ALIVE_FLAG else 0) }, h.ctx⟩) rfl rfl rfl ⟨rfl, rfl, rfl, rfl⟩
  have hvs : (v.step ((PEv.headersComplete at_ cl cc ka).observe base (stream.drop base))) =
      { v.flush with contentLength := some cl, connClose := v.connClose || cc, keepAlive := v.keepAlive || ka, headersEnd := some (base + at_) } := rfl
  refine ⟨⟨{ h.resp with
      areHeadersComplete := 1
      headersLen := hl
      contentLength := if cl ≠ 18446744073709551615 then cl.toNat % 2 ^ cfg.sizeBits else 0
      respFlags := (h.resp.respFlags ||| (if cc then CONNECTION_CLOSE_FLAG else 0))
        ||| (if ka then CONNECTION_KEEP_ALIVE_FLAG else 0)
      headerCount := v.flush.headers.length },
      { h.ctx with lastField := none, lastFieldLen := fl, lastValue := none, lastValueLen := vl }⟩, w.mem b, s', hevs, ?_, ?_, ?_, rfl, rfl⟩
  · have hA : mAssert 822 h.ctx.bound w = (.ok (), w) := by rw [hi.bound]; rfl
    simp only [recvCallback, onHeadersComplete, hc, M.bind_apply, hA, mAssert_true, decide_eq_true hcL]
    rw [hlr w]
    dsimp only
    rw [epch]
    simp only [M.pure_apply, hi.opt, hi.head, hc, Mem.set_self, ← hpol, policy]
  · rw [hs, hvs, hpol]
    have hpt : PtrOk strict span (base + at_) ({ h.ctx with lastField := none, lastFieldLen := fl, lastValue := none, lastValueLen := vl } :
        PCtx S) (ph.next (.headersComplete at_ cl cc ka) ret) := by
      rcases hnext with h | h | h <;> (rw [h]; exact ⟨rfl, rfl⟩)
    exact { hi with
      lo_le := by simp only [endPos]; omega
      cur := ⟨c, hc, hc1, by simp only [endPos]; omega, fun p hp => by
        have h1 := hc3 p hp
        have h2 := hl1 p hp
        dsimp only; omega⟩
      hlen0 := hl2
      count := by simp only [endPos, Option.isSome_none, Bool.false_eq_true, if_false]; omega
      ptrs := hpt
      bndF := fun f' hf' => by simp at hf'
      bndV := fun f' hf' => by simp at hf'
      fieldSeen := fun h => by simp at h
      state := by simp only [flush_state]; exact hi.state
      code := by simp only [flush_code]; exact hi.code
      hcount := rfl
      flags := by dsimp only; rw [hi.flags]; exact connFlags_or _ _ _ _
      clen := rfl
      ahc := rfl
      pend := by simp only [PendOk]; exact hpn
      body := by
        simp only [flush_body]
        rcases hi.body with h | ⟨p, e, h1, h2, h3, h4⟩
        · exact .inl h
        · exact .inr ⟨p, e, h1, h2, by simp only [endPos]; omega, h4⟩
      opted := fun h => ⟨.inr (hopt h), (hi.opted h).2⟩
      begun := fun _ => by simp only [flush_messages]; exact hi.begun hidle
      done := fun h => absurd h (by rcases hnext with h | h | h <;> (rw [h]; simp))
      one := fun hm => by
        simp only [flush_messages] at hm
        have h0 := (hi.one hm).1 hphearly
        exact ⟨fun _ => h0, fun p q e _ hq => by rw [h0] at hq; cases hq⟩
      hend := fun hm => by
        simp only [flush_messages] at hm
        have h0 := (hi.one hm).1 hphearly
        exact ⟨fun h => absurd h (by rcases hnext with h | h | h <;> (rw [h]; simp [Phase.early])),
          fun n hn => ⟨by simp only [Option.some.injEq] at hn; simp only [endPos]; omega, fun q e hq => by rw [h0] at hq; cases hq⟩⟩ }
  · rw [hvs]
    rcases hh with h | ⟨a1, a2, a3, a4, a5, h⟩
    · exact .inl h
    · exact .inr ⟨a1, a2, a3, a4, a5, h⟩

/-- Every callback preserves the invariant. -/
theorem recvCallback_step {e : PEv} (hi : RInv cfg strict r0 head stream ph base lo v span h (w.mem b))
    (hev : EvOk strict base (stream.length - base) ph lo e) (hz : stream.length - base = 0 → base < r0.bufferLen) :
    StepOk cfg strict r0 head stream ph base lo v span b h w e := by
  cases e with
  | messageBegin => exact step_messageBegin hi hev
  | status off len code => exact step_status hi hev
  | statusComplete code => exact step_statusComplete hi hev
  | headerField off len => exact step_headerField hi hev
  | headerValue off len => exact step_headerValue hi hev
  | headersComplete a c d e => exact step_headersComplete hi hev
  | body off len => exact step_body hi hev hz
  | messageComplete => exact step_messageComplete hi hev

end CoreHttp

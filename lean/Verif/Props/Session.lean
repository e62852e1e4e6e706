import Verif.Props.Exchange
import Verif.Spec.Session

/-! # C20 and C63: sessions -/

namespace CoreHttp.Props
open CoreHttp Spec
variable {σ : Type} {P : Parser} {cfg : Cfg} {strict : Bool} {T : Transport σ} {send : σ → Bytes → Int × σ} {recv : σ → Nat → Int × Bytes × σ}
  {resp : Resp σ} {rh : ReqHeaders} {b rb : Nat} {body : Option Nat} {n : Nat} {flags : UInt32}

/-- **What a returning call leaves behind**: the objects are still usable, the same way; the header block is exactly what was sent, unless the response was
received into the same buffer. -/
theorem send_leaves {w : World PLog σ} (hp : CallPre strict P cfg T send recv rh rb body n resp b w.mem) {fuel : Nat} {st : Status}
    {orh : Option ReqHeaders} {oresp : Option (Resp σ)} {w' : World PLog σ}
    (e : HTTPClient_Send P cfg fuel (some T) (some rh) body n (some resp) flags w = (.ok (st, orh, oresp), w')) :
    ∃ rh' resp', orh = some rh' ∧ oresp = some resp' ∧ SetUp (withClock resp) resp' ∧ rh'.pBuffer = some rb ∧ rh'.bufferLen = rh.bufferLen ∧
      16 ≤ rh'.headersLen ∧ rh'.headersLen ≤ rh'.bufferLen ∧
      (b ≠ rb → headerBlock w'.mem rh' = blockAfter rh.bufferLen (headerBlock w.mem rh) n flags.toNat) := by
  have hblk : (headerBlock w.mem rh).length = rh.headersLen := by
    have h2 := hp.reqRoom; have h3 := hp.reqLe
    unfold headerBlock; rw [hp.reqBuf]; simp only [List.length_take]; omega
  rcases send_spec (flags := flags) hp fuel with ⟨h0, h1⟩ | ⟨h0, s1, m1, rh', evs, hfr, hb, hbl, hB, hr, hcase⟩
  · rw [e] at h1; cases h1
    exact ⟨rh, _, rfl, rfl, ⟨rfl, rfl, rfl, rfl, rfl⟩, hp.reqBuf, rfl, hp.reqLen, hp.reqLe, fun _ => by
      unfold blockAfter; rw [if_neg (by omega)]⟩
  · have hba : blockAfter rh.bufferLen (headerBlock w.mem rh) n flags.toNat = headerBlock m1 rh' := by
      unfold blockAfter; rw [if_pos h0, hB]
    have hl : 16 ≤ rh'.headersLen := hr.reqLen
    have hle : rh'.headersLen ≤ rh'.bufferLen := by
      have h1 := congrArg List.length hB
      have h2 := hr.reqRoom
      have h3 : (headerBlock m1 rh').length = min rh'.headersLen (m1 rb).length := by unfold headerBlock; rw [hb]; simp
      omega
    rcases hcase with ⟨r, h2, h1, hph⟩ | ⟨h1, hph⟩
    · rw [e] at h1
      rcases h2 with rfl | rfl
      · cases h1
        exact ⟨rh', _, rfl, rfl, ⟨rfl, rfl, rfl, rfl, rfl⟩, hb, hbl, hl, hle, fun _ => hba.symm⟩
      · cases h1
    · rw [e] at h1
      simp only [M.bind_apply] at h1
      obtain ⟨q, w2, evs', e2, _, _, _, hfr2⟩ := receive_no_send (w := ⟨s1, m1, w.log ++ evs⟩) hr fuel
      rw [e2] at h1
      rcases q with ⟨st2, resp'⟩ | f | _
      · cases h1
        refine ⟨rh', resp', rfl, rfl, receive_setUp hr e2, hb, hbl, hl, hle, fun hne => ?_⟩
        rw [hba]
        unfold headerBlock
        rw [hb]
        have := hfr2.1 rb (Ne.symm hne)
        dsimp only at this ⊢
        rw [this]
      · cases h1
      · cases h1

theorem withClock_setUp (resp : Resp σ) : (withClock resp).pBuffer = resp.pBuffer ∧ (withClock resp).bufferLen = resp.bufferLen := ⟨rfl, rfl⟩

/-- The conditions for a call depend on the objects' buffers and on lengths only. -/
theorem callPre_mono {m m' : Mem} {rh' : ReqHeaders} {resp' : Resp σ} (hp : CallPre strict P cfg T send recv rh rb body n resp b m)
    (hs : ∀ i, (m' i).length = (m i).length) (h1 : rh'.pBuffer = some rb) (h2 : rh'.bufferLen = rh.bufferLen) (h3 : 16 ≤ rh'.headersLen)
    (h4 : rh'.headersLen ≤ rh'.bufferLen) (h5 : resp'.pBuffer = resp.pBuffer) (h6 : resp'.bufferLen = resp.bufferLen)
    (h7 : resp'.pHeaderParsingCallback ≠ some .null) :
    CallPre strict P cfg T send recv rh' rb body n resp' b m' :=
  { hp with
    reqBuf := h1
    reqRoom := by rw [h2, hs]; exact hp.reqRoom
    reqLen := h3
    reqLe := h4
    reqSize := by rw [h2]; exact hp.reqSize
    buf := h5.trans hp.buf
    pos := by rw [h6]; exact hp.pos
    room := by rw [h6, hs]; exact hp.room
    size := by rw [h6]; exact hp.size
    callback := h7
    bodyRoom := fun bb h => ⟨by rw [hs]; exact (hp.bodyRoom bb h).1, (hp.bodyRoom bb h).2⟩ }

/-- **C63.** In a session – any number of calls of HTTPClient_Send with the same objects, the application doing what it likes in between – the conditions
under which C17–C61 hold are met at every call, whatever the outcomes of the calls before: it suffices that they are met at the beginning, by each body used. -/
theorem C63_session {keep : Bool} {rh' : ReqHeaders} {resp' : Resp σ} {w w' : World PLog σ} {xs : List (Exchange σ)}
    (hs : Session P cfg T keep rh resp w xs rh' resp' w')
    (hp : ∀ x ∈ xs, CallPre strict P cfg T send recv rh rb x.body x.bodyLen resp b w.mem) :
    ∀ x ∈ xs, CallPre strict P cfg T send recv x.req rb x.body x.bodyLen x.resp b x.before.mem ∧
      HTTPClient_Send P cfg x.fuel (some T) (some x.req) x.body x.bodyLen (some x.resp) x.flags x.before =
        (.ok (x.status, some x.req', some x.resp'), x.after) ∧ x.after.log = x.before.log ++ x.events := by
  induction hs with
  | nil => intro x hx; cases hx
  | @call rh resp w rh1 resp1 w1 xs rh2 resp2 w2 body n flags fuel st evs e hl next ih =>
    have h0 := hp _ List.mem_cons_self
    dsimp only at h0
    intro x hx
    rcases List.mem_cons.mp hx with rfl | hx
    · exact ⟨h0, e, hl⟩
    · refine ih (fun y hy => ?_) x hx
      have h1 := hp y (List.mem_cons_of_mem _ hy)
      obtain ⟨rh1', resp1', r1, r2, r3, r4, r5, r6, r7, _⟩ := send_leaves h0 e
      cases r1; cases r2
      obtain ⟨_, _, e2, _, _, s1, _⟩ := C60_safe (flags := flags) h0 fuel
      rw [e] at e2; cases e2
      exact callPre_mono h1 s1 r4 r5 r6 r7 r3.1 r3.2.1 (by rw [r3.2.2.1]; exact h0.callback)
  | @app rh resp w rh1 resp1 s1 m1 xs rh2 resp2 w2 step next ih =>
    intro x hx
    refine ih (fun y hy => ?_) x hx
    have h1 := hp y hy
    exact callPre_mono h1 step.sizes (step.reqBuf.1.trans h1.reqBuf) step.reqBuf.2 step.reqLen.1 step.reqLen.2 step.respBuf.1 step.respBuf.2 step.callback

/-- What a returning call has put on the wire: nothing when the block does not fit, everything unless it failed with HTTPNetworkError. -/
theorem send_accepts {w : World PLog σ} (hp : CallPre strict P cfg T send recv rh rb body n resp b w.mem) {fuel : Nat} {st : Status}
    {orh : Option ReqHeaders} {oresp : Option (Resp σ)} {w' : World PLog σ} {evs : List (Ev PLog)}
    (e : HTTPClient_Send P cfg fuel (some T) (some rh) body n (some resp) flags w = (.ok (st, orh, oresp), w')) (hl : w'.log = w.log ++ evs) :
    (rh.bufferLen < (wireHeaders (headerBlock w.mem rh) n flags.toNat).length → st = .insufficientMemory ∧ evs = [] ∧ w' = w) ∧
    ((wireHeaders (headerBlock w.mem rh) n flags.toNat).length ≤ rh.bufferLen →
      accepted evs <+: wireRequest w.mem rh body n flags ∧ (st ≠ .networkError → accepted evs = wireRequest w.mem rh body n flags)) := by
  rcases send_spec (flags := flags) hp fuel with ⟨h0, h1⟩ | ⟨h0, s1, m1, rh', evs1, hfr, hb, hbl, hB, hr, ⟨r, h2, h1, hph⟩ | ⟨h1, hph⟩⟩
  · rw [e] at h1; cases h1
    obtain rfl : evs = [] := List.append_cancel_left (hl.symm.trans (List.append_nil _).symm)
    exact ⟨fun _ => ⟨rfl, rfl, rfl⟩, fun h => absurd h (by omega)⟩
  · refine ⟨fun h => absurd h (by omega), fun _ => ?_⟩
    rw [e] at h1
    rcases h2 with rfl | rfl
    · cases h1
      obtain rfl : evs1 = evs := List.append_cancel_left hl
      exact ⟨hph.prefix_, fun h => absurd rfl h⟩
    · cases h1
  · refine ⟨fun h => absurd h (by omega), fun _ => ?_⟩
    obtain ⟨q, w2, evs2, e2, hl2, hns, hnf, _⟩ := receive_no_send (w := ⟨s1, m1, w.log ++ evs1⟩) hr fuel
    rw [e] at h1
    simp only [M.bind_apply, e2] at h1
    rcases q with ⟨st2, resp'⟩ | f | _
    · cases h1
      obtain rfl : evs1 ++ evs2 = evs := List.append_cancel_left (by rw [← hl, hl2, List.append_assoc])
      have : accepted (evs1 ++ evs2) = wireRequest w.mem rh body n flags := by
        rw [accepted_append', (sends_nil hns).2, List.append_nil]; exact hph.all_ rfl
      exact ⟨by rw [this]; exact List.prefix_rfl, fun _ => this⟩
    · cases h1
    · cases h1

/-- **The header block at every call** of a session in which the application leaves the request alone and the response buffer is another one: it is
the block of the beginning, with what the calls before have added. -/
theorem session_block {rh' : ReqHeaders} {resp' : Resp σ} {w w' : World PLog σ} {xs : List (Exchange σ)}
    (hs : Session P cfg T true rh resp w xs rh' resp' w')
    (hp : ∀ x ∈ xs, CallPre strict P cfg T send recv rh rb x.body x.bodyLen resp b w.mem) (hb : rh.pBuffer = some rb) (hne : b ≠ rb) :
    headerBlock w'.mem rh' = blockAfterAll rh.bufferLen (headerBlock w.mem rh) xs ∧
    ∀ pre x post, xs = pre ++ x :: post → headerBlock x.before.mem x.req = blockAfterAll rh.bufferLen (headerBlock w.mem rh) pre ∧
      x.req.bufferLen = rh.bufferLen := by
  induction hs with
  | nil => exact ⟨rfl, fun pre x post h => by cases pre <;> cases h⟩
  | @call rh resp w rh1 resp1 w1 xs rh2 resp2 w2 body n flags fuel st evs e hl next ih =>
    have h0 := hp _ List.mem_cons_self
    dsimp only at h0
    obtain ⟨rh1', resp1', r1, r2, r3, r4, r5, r6, r7, r8⟩ := send_leaves h0 e
    cases r1; cases r2
    obtain ⟨i1, i2⟩ := ih (fun y hy => by
      have h1 := hp y (List.mem_cons_of_mem _ hy)
      obtain ⟨_, _, e2, _, _, s1, _⟩ := C60_safe (flags := flags) h0 fuel
      rw [e] at e2; cases e2
      exact callPre_mono h1 s1 r4 r5 r6 r7 r3.1 r3.2.1 (by rw [r3.2.2.1]; exact (hp _ List.mem_cons_self).callback)) r4
    rw [r8 hne, r5] at i1 i2
    refine ⟨i1, fun pre x post h => ?_⟩
    cases pre with
    | nil => cases h; exact ⟨rfl, rfl⟩
    | cons y pre =>
      simp only [List.cons_append, List.cons.injEq] at h
      obtain ⟨rfl, h⟩ := h
      exact i2 pre x post h
  | @app rh resp w rh1 resp1 s1 m1 xs rh2 resp2 w2 step next ih =>
    obtain ⟨hk1, hk2⟩ := step.keeps rfl
    subst hk1
    have hm : headerBlock m1 rh1 = headerBlock w.mem rh1 := by unfold headerBlock; rw [hb]; dsimp only; rw [hk2 rb hb]
    have := ih (fun y hy => by
      have h1 := hp y hy
      exact callPre_mono h1 step.sizes h1.reqBuf rfl h1.reqLen h1.reqLe step.respBuf.1 step.respBuf.2 step.callback) hb
    dsimp only at this
    rwa [hm] at this

/-- **C20, sessions, partial** (missing: a non-empty body with HTTP_SEND_DISABLE_CONTENT_LENGTH_FLAG clear; and a response buffer that is the request's,
where the response overwrites the request). However often the request is sent, whatever happened before, every call is given the same header block
and puts exactly it and the body of that call on the wire, or a prefix of that, and then the status is HTTPNetworkError. -/
theorem C20_session_partial {rh' : ReqHeaders} {resp' : Resp σ} {w w' : World PLog σ} {xs : List (Exchange σ)}
    (hs : Session P cfg T true rh resp w xs rh' resp' w')
    (hp : ∀ x ∈ xs, CallPre strict P cfg T send recv rh rb x.body x.bodyLen resp b w.mem) (hb : rh.pBuffer = some rb) (hne : b ≠ rb)
    (ha : ∀ x ∈ xs, addsContentLength x.bodyLen x.flags.toNat = false) :
    headerBlock w'.mem rh' = headerBlock w.mem rh ∧
    ∀ x ∈ xs, headerBlock x.before.mem x.req = headerBlock w.mem rh ∧
      accepted x.events <+: headerBlock w.mem rh ++ bodyOf x.before.mem x.body x.bodyLen ∧
      (x.status ≠ .networkError → accepted x.events = headerBlock w.mem rh ++ bodyOf x.before.mem x.body x.bodyLen) := by
  have hw : ∀ blk, ∀ x ∈ xs, wireHeaders blk x.bodyLen x.flags.toNat = blk := by
    intro blk x hx; unfold wireHeaders; rw [if_neg (by rw [ha x hx]; simp)]
  have hall : ∀ (pre : List (Exchange σ)), (∀ x ∈ pre, x ∈ xs) → ∀ blk, blockAfterAll rh.bufferLen blk pre = blk := by
    intro pre
    induction pre with
    | nil => intros; rfl
    | cons x pre ih =>
      intro hm blk
      have : blockAfter rh.bufferLen blk x.bodyLen x.flags.toNat = blk := by
        unfold blockAfter; rw [hw blk x (hm x List.mem_cons_self)]; split <;> rfl
      show blockAfterAll rh.bufferLen (blockAfter rh.bufferLen blk x.bodyLen x.flags.toNat) pre = blk
      rw [this]
      exact ih (fun y hy => hm y (List.mem_cons_of_mem _ hy)) blk
  obtain ⟨h1, h2⟩ := session_block hs hp hb hne
  refine ⟨by rw [h1, hall xs (fun _ h => h)], fun x hx => ?_⟩
  obtain ⟨pre, post, hx'⟩ := List.append_of_mem hx
  obtain ⟨h3, h4⟩ := h2 pre x post hx'
  rw [hall pre (fun y hy => by rw [hx']; exact List.mem_append_left _ hy)] at h3
  obtain ⟨c1, c2, c3⟩ := C63_session hs hp x hx
  have h5 := (send_accepts c1 c2 c3).2 (by
    rw [hw _ x hx]
    have := c1.reqLe
    have h6 := c1.reqBuf
    unfold headerBlock; rw [h6]; simp only [List.length_take]; omega)
  unfold wireRequest at h5
  rw [hw _ x hx, h3] at h5
  exact ⟨h3, h5⟩

/-- **C20, the other case, exactly**: with a body of `n > 0` bytes and the flag clear, the call after `k` earlier ones (all of which found room) puts
`k + 1` Content-Length lines on the wire; without room nothing is sent and the status is HTTPInsufficientMemory. -/
theorem C20_session_adds {rh' : ReqHeaders} {resp' : Resp σ} {w w' : World PLog σ} {xs : List (Exchange σ)}
    (hs : Session P cfg T true rh resp w xs rh' resp' w')
    (hp : ∀ x ∈ xs, CallPre strict P cfg T send recv rh rb x.body x.bodyLen resp b w.mem) (hb : rh.pBuffer = some rb) (hne : b ≠ rb)
    (hn : ∀ x ∈ xs, x.bodyLen = n ∧ addsContentLength x.bodyLen x.flags.toNat = true) {pre post : List (Exchange σ)} {x : Exchange σ}
    (hx : xs = pre ++ x :: post) :
    (rh.bufferLen < (stripBlankLine (headerBlock w.mem rh) ++ lengthLines n (pre.length + 1) ++ crlf).length →
      x.status = .insufficientMemory ∧ x.events = []) ∧
    ((stripBlankLine (headerBlock w.mem rh) ++ lengthLines n (pre.length + 1) ++ crlf).length ≤ rh.bufferLen →
      accepted x.events <+: stripBlankLine (headerBlock w.mem rh) ++ lengthLines n (pre.length + 1) ++ crlf ++ bodyOf x.before.mem x.body n ∧
      (x.status ≠ .networkError →
        accepted x.events = stripBlankLine (headerBlock w.mem rh) ++ lengthLines n (pre.length + 1) ++ crlf ++ bodyOf x.before.mem x.body n)) := by
  have hwire : ∀ j : Nat, ∀ blk, (blk = if j = 0 then headerBlock w.mem rh else stripBlankLine (headerBlock w.mem rh) ++ lengthLines n j ++ crlf) →
      ∀ y ∈ xs, wireHeaders blk y.bodyLen y.flags.toNat = stripBlankLine (headerBlock w.mem rh) ++ lengthLines n (j + 1) ++ crlf := by
    intro j blk hblk y hy
    obtain ⟨h1, h2⟩ := hn y hy
    unfold wireHeaders
    rw [if_pos h2, h1]
    have : stripBlankLine blk = stripBlankLine (headerBlock w.mem rh) ++ lengthLines n j := by
      rw [hblk]
      cases j with
      | zero => simp [lengthLines]
      | succ j =>
        rw [if_neg (by omega)]
        apply strip_crlf
        simp only [lengthLines]
        rw [← List.append_assoc]
        exact crlf_suffix_headerLine _ _ _
    rw [this]
    simp [lengthLines, List.append_assoc]
  have hmono : ∀ i k : Nat, (lengthLines n i).length ≤ (lengthLines n (i + k)).length := by
    intro i k
    induction k with
    | zero => exact Nat.le_refl _
    | succ k ih =>
      refine Nat.le_trans ih ?_
      show _ ≤ (lengthLines n (i + k) ++ _).length
      rw [List.length_append]; omega
  have hblock : ∀ (l : List (Exchange σ)) (i : Nat) (blk : Bytes), (∀ y ∈ l, y ∈ xs) →
      (blk = if i = 0 then headerBlock w.mem rh else stripBlankLine (headerBlock w.mem rh) ++ lengthLines n i ++ crlf) →
      ∃ j, j ≤ i + l.length ∧ (blockAfterAll rh.bufferLen blk l =
          if j = 0 then headerBlock w.mem rh else stripBlankLine (headerBlock w.mem rh) ++ lengthLines n j ++ crlf) ∧
        (j < i + l.length → rh.bufferLen < (stripBlankLine (headerBlock w.mem rh) ++ lengthLines n (j + 1) ++ crlf).length) := by
    intro l
    induction l with
    | nil => intro i blk _ hblk; exact ⟨i, by simp, hblk, fun h => absurd h (by simp)⟩
    | cons y l ih =>
      intro i blk hm hblk
      have hy := hwire i blk hblk y (hm y List.mem_cons_self)
      have hm' : ∀ z ∈ l, z ∈ xs := fun z hz => hm z (List.mem_cons_of_mem _ hz)
      show ∃ j, _ ∧ (blockAfterAll rh.bufferLen (blockAfter rh.bufferLen blk y.bodyLen y.flags.toNat) l = _) ∧ _
      unfold blockAfter
      rw [hy]
      by_cases hfit : (stripBlankLine (headerBlock w.mem rh) ++ lengthLines n (i + 1) ++ crlf).length ≤ rh.bufferLen
      · rw [if_pos hfit]
        obtain ⟨j, j1, j2, j3⟩ := ih (i + 1) (stripBlankLine (headerBlock w.mem rh) ++ lengthLines n (i + 1) ++ crlf) hm'
          (by rw [if_neg (by omega)])
        exact ⟨j, by simp; omega, j2, fun h => j3 (by simp at h; omega)⟩
      · rw [if_neg hfit]
        obtain ⟨j, j1, j2, j3⟩ := ih i blk hm' hblk
        refine ⟨j, by simp; omega, j2, fun h => ?_⟩
        by_cases h5 : j < i + l.length
        · exact j3 h5
        · have : j = i + l.length := by omega
          subst this
          have := hmono (i + 1) l.length
          rw [show i + 1 + l.length = i + l.length + 1 by omega] at this
          simp only [List.length_append] at hfit ⊢
          omega
  have hxm : x ∈ xs := by rw [hx]; simp
  obtain ⟨c1, c2, c3⟩ := C63_session hs hp x hxm
  obtain ⟨_, hb2⟩ := session_block hs hp hb hne
  obtain ⟨b1, b2⟩ := hb2 pre x post hx
  obtain ⟨j, j1, j2, j3⟩ := hblock pre 0 (headerBlock w.mem rh) (fun y hy => by rw [hx]; exact List.mem_append_left _ hy) rfl
  simp only [Nat.zero_add] at j1 j3
  rw [j2] at b1
  have hw := hwire j _ rfl x hxm
  rw [← b1] at hw
  obtain ⟨a1, a2⟩ := send_accepts c1 c2 c3
  rw [hw, b2] at a1 a2
  unfold wireRequest at a2
  rw [hw, (hn x hxm).1] at a2
  constructor
  · intro h
    by_cases hj : j < pre.length
    · exact ⟨(a1 (j3 hj)).1, (a1 (j3 hj)).2.1⟩
    · obtain rfl : j = pre.length := by omega
      exact ⟨(a1 h).1, (a1 h).2.1⟩
  · intro h
    by_cases hj : j < pre.length
    · have h1 := j3 hj
      have h2 := hmono (j + 1) (pre.length - j)
      rw [show j + 1 + (pre.length - j) = pre.length + 1 by omega] at h2
      simp only [List.length_append] at h h1
      omega
    · obtain rfl : j = pre.length := by omega
      exact a2 h

/-- **C63, with a cooperative peer.** Every exchange of a session in which the peer takes the request and delivers a well-formed response that fits
returns HTTPSuccess and exactly that response – never anything of another exchange –, however many exchanges there were before and whatever their outcomes. -/
theorem C63_session_exchange {keep : Bool} {rh' : ReqHeaders} {resp' : Resp σ} {w w' : World PLog σ} {xs : List (Exchange σ)}
    (hs : Session Ref.httpParser cfg T keep rh resp w xs rh' resp' w')
    (hp : ∀ x ∈ xs, CallPre true Ref.httpParser cfg T send recv rh rb x.body x.bodyLen resp b w.mem) {x : Exchange σ} (hx : x ∈ xs)
    {head : Bool} {r : Response} {got rest : σ → Bytes} (ok : r.Ok head) (hreq : ReqIs head (headerBlock x.before.mem x.req))
    (hflag : ¬ headersOnly x.resp.respOptionFlags) (hfit : r.bytes.length ≤ x.resp.bufferLen)
    (hfit' : (wireHeaders (headerBlock x.before.mem x.req) x.bodyLen x.flags.toNat).length ≤ x.req.bufferLen)
    (hP : Peer (wireRequest x.before.mem x.req x.body x.bodyLen x.flags) r.bytes got rest send recv x.resp) (hgot : got x.before.env = [])
    (hf1 : x.req.bufferLen ≤ x.fuel) (hf2 : x.bodyLen ≤ x.fuel) (hf3 : x.resp.bufferLen < x.fuel) :
    x.status = .success ∧ got x.after.env = wireRequest x.before.mem x.req x.body x.bodyLen x.flags ∧ rest x.after.env = [] ∧
      Got cfg r x.resp.pHeaderParsingCallback.isSome x.events x.after.mem x.resp' := by
  obtain ⟨c1, c2, c3⟩ := C63_session hs hp x hx
  obtain ⟨rh1, resp1, w1, evs, e, hl, g1, g2, _, _, g5⟩ := C58_exchange c1 ok hreq hflag hfit hfit' hP hgot hf1 hf2 hf3
  rw [c2] at e
  simp only [Prod.mk.injEq, Run.ok.injEq, Option.some.injEq] at e
  obtain ⟨⟨e1, rfl, rfl⟩, rfl⟩ := e
  obtain rfl : x.events = evs := List.append_cancel_left (c3.symm.trans hl)
  exact ⟨e1, g1, g2, g5⟩

/-- A session of two exchanges with the same objects: C63, C20 and C58 apply to both. The response object is in the block of the request or in another. -/
example (q : Nat) (hq : q = 0 ∨ q = 1) (t t' : Nat) : ∃ rh' resp' w' x y,
    Session Ref.httpParser exCfg (peerT (wireRequest xMem xReq (some 2) 5 1) exResponse.bytes) false xReq (peerResp q) ⟨(t, [], []), xMem, []⟩
      [x, y] rh' resp' w' ∧
    (∀ z ∈ [x, y], CallPre true Ref.httpParser exCfg (peerT (wireRequest xMem xReq (some 2) 5 1) exResponse.bytes)
      (peerSend (wireRequest xMem xReq (some 2) 5 1) exResponse.bytes) peerRecv xReq 0 z.body z.bodyLen (peerResp q) q xMem) ∧
    (∀ z ∈ [x, y], z.status = .success ∧ Got exCfg exResponse true z.events z.after.mem z.resp') ∧
    (∀ z ∈ [x, y], addsContentLength z.bodyLen z.flags.toNat = false) := by
  have hpre := peerCallPre (wireRequest xMem xReq (some 2) 5 1) exResponse.bytes q hq
  have run : ∀ (w : World PLog PeerEnv) (resp : Resp PeerEnv), w.mem = xMem → w.env.2 = ([], []) →
      CallPre true Ref.httpParser exCfg (peerT (wireRequest xMem xReq (some 2) 5 1) exResponse.bytes)
        (peerSend (wireRequest xMem xReq (some 2) 5 1) exResponse.bytes) peerRecv xReq 0 (some 2) 5 resp q xMem →
      SetUp (peerResp q) resp →
      ∃ rh' resp' w' evs, HTTPClient_Send Ref.httpParser exCfg 300 (some (peerT (wireRequest xMem xReq (some 2) 5 1) exResponse.bytes)) (some xReq)
        (some 2) 5 (some resp) 1 w = (.ok (.success, some rh', some resp'), w') ∧ w'.log = w.log ++ evs ∧
        Got exCfg exResponse true evs w'.mem resp' := by
    intro w resp hm he hp hset
    obtain ⟨env, mem, log⟩ := w
    obtain ⟨pb, bl, cb, gt, a1, a2, a3, a4, a5, a6, a7, a8, fl, a9⟩ := resp
    obtain ⟨h1, h2, h3, h4, h5⟩ := hset
    dsimp only at hm he h1 h2 h3 h4 h5
    subst hm h1 h2 h3 h4 h5
    have hP := peer_ok (wireRequest xMem xReq (some 2) 5 1) exResponse.bytes q
    obtain ⟨rh', resp', w', evs, e, hl, _, _, _, _, h6⟩ := C58_exchange (w := (⟨env, xMem, log⟩ : World PLog PeerEnv))
      (flags := 1) (fuel := 300) (got := fun s => s.2.1) (rest := fun s => s.2.2) hp exResponse_ok (show ¬ ascii "HEAD" <+: headerBlock xMem xReq by decide +kernel)
      (show ¬ ((0 : UInt32).toNat % 2 = 1) by decide) (show exResponse.bytes.length ≤ 200 by decide +kernel)
      (show (wireHeaders (headerBlock xMem xReq) 5 (UInt32.toNat 1)).length ≤ 60 by decide +kernel)
      ({ hP with clock := hP.clock, header := hP.header }) (show (fun s : PeerEnv => s.2.1) env = [] by simp [he]) (by decide) (by decide)
      (show 200 < 300 by decide)
    exact ⟨rh', resp', w', evs, e, hl, h6⟩
  obtain ⟨rh1, resp1, w1, evs1, e1, l1, g1⟩ := run ⟨(t, [], []), xMem, []⟩ (peerResp q) rfl rfl hpre ⟨rfl, rfl, rfl, rfl, rfl⟩
  obtain ⟨rh1', resp1', r1, r2, r3, r4, r5, r6, r7, _⟩ := send_leaves (w := ⟨(t, [], []), xMem, []⟩) hpre e1
  cases r1; cases r2
  obtain ⟨_, _, e1', _, _, s1, _⟩ := C60_safe (w := ⟨(t, [], []), xMem, []⟩) (flags := 1) hpre 300
  rw [e1] at e1'; cases e1'
  have hset : SetUp (peerResp q) resp1 := r3
  have hcb : resp1.pHeaderParsingCallback ≠ some .null := by rw [hset.2.2.1]; exact hpre.callback
  have hpre2 := callPre_mono (m' := xMem) (rh' := xReq) hpre (fun _ => rfl) rfl rfl (by decide) (by decide) hset.1 hset.2.1 hcb
  obtain ⟨rh2, resp2, w2, evs2, e2, l2, g2⟩ := run ⟨(t', [], []), xMem, w1.log⟩ resp1 rfl rfl hpre2 hset
  refine ⟨_, _, _, _, _, .call e1 l1 (.app (s1 := (t', [], [])) (m1 := xMem) (rh1 := xReq) (resp1 := resp1) ?_ (.call e2 l2 (.nil _ _ _))), ?_, ?_, ?_⟩
  · exact { sizes := fun i => (s1 i).symm
            reqBuf := ⟨by rw [r4]; rfl, by rw [r5]⟩
            reqLen := ⟨by decide, by decide⟩
            respBuf := ⟨rfl, rfl⟩
            callback := hcb
            keeps := by intro h; cases h }
  · intro z hz
    simp only [List.mem_cons, List.not_mem_nil, or_false] at hz
    rcases hz with rfl | rfl <;> exact hpre
  · intro z hz
    simp only [List.mem_cons, List.not_mem_nil, or_false] at hz
    rcases hz with rfl | rfl
    · exact ⟨rfl, g1⟩
    · exact ⟨rfl, g2⟩
  · intro z hz
    simp only [List.mem_cons, List.not_mem_nil, or_false] at hz
    rcases hz with rfl | rfl <;> exact (show addsContentLength 5 (UInt32.toNat 1) = false by decide)

/-- **C18 (HTTPClient_Send).** If the header block with the Content-Length line does not fit in its buffer, HTTPClient_Send returns HTTPInsufficientMemory,
and nothing happens: no transport call, no change of any buffer or of the request object. -/
theorem C18_send {w : World PLog σ} (hp : CallPre strict P cfg T send recv rh rb body n resp b w.mem)
    (hnofit : rh.bufferLen < (wireHeaders (headerBlock w.mem rh) n flags.toNat).length) (fuel : Nat) :
    HTTPClient_Send P cfg fuel (some T) (some rh) body n (some resp) flags w = (.ok (.insufficientMemory, some rh, some (withClock resp)), w) := by
  rcases send_spec (flags := flags) hp fuel with ⟨_, h1⟩ | ⟨h0, _⟩
  · exact h1
  · omega

end CoreHttp.Props

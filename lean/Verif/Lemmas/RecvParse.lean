import Verif.Lemmas.RecvStep
import Verif.Lemmas.RecvStarts
import Verif.Spec.Objects

/-! # One call of the parser -/

namespace CoreHttp
open Spec
variable {σ S : Type}

/-- Requirements on a single event, given what precedes it. `L` is the length of the response buffer. -/
def EvGood (L : Nat) (pre : List (Ev PLog)) : Ev PLog → Prop
  | .recv off len ret data => off = (received pre).length ∧ off + len = L ∧ 0 < len ∧ data.length = ret.toNat ∧ ret.toNat ≤ len
  | .parserCall off data => off = (parsed pre).length ∧ received pre = parsed pre ++ data
  | .header fl f vl x _ => slice (received pre) fl f.length = f ∧ slice (received pre) vl x.length = x ∧ fl + f.length ≤ vl ∧
      vl + x.length ≤ (received pre).length
  | .parserEvent (.mem blk) => ∀ i, i < (received pre).length →
      ((∀ o ∈ obsOf pre, o.isBody = true → i < o.loc) ∨ (∀ o ∈ obsOf pre, o.isBody = true → o.loc + o.data.length ≤ i)) →
      blk[i]? = (received pre)[i]?
  | .parserEvent (.obs o) => o.loc + o.data.length ≤ (received pre).length ∧ slice (received pre) o.loc o.data.length = o.data ∧
      (isHeadersEnd o → (hdrScan pre).callAt < o.loc)
  | .send _ _ => False
  | _ => True

/-- Message state by phase. -/
def Spec.Phase.msg : Phase → PState
  | .idle => .none
  | .complete => .complete
  | _ => .incomplete

/-- Phases after the end of the header section. -/
def Spec.Phase.late : Phase → Prop
  | .body | .nobody | .tfield | .tvalue | .complete | .paused => True
  | _ => False

/-- The invariant about the location of the header section. -/
structure XInv (ph : Phase) (base lo : Nat) (evs : List (Ev PLog)) (h : RS S σ) : Prop where
  ptr : h.resp.pHeaders = (hdrScan evs).first
  len : h.resp.headersLen = (hdrScan evs).len
  cur : ph ≠ .paused → h.ctx.cur = some (max (hdrScan evs).lastEnd base)
  le : (hdrScan evs).lastEnd ≤ lo
  late : ph.late → (view (obsOf evs)).contentLength.isSome = true

theorem hdrScan_snoc (evs : List (Ev PLog)) (e : Ev PLog) : hdrScan (evs ++ [e]) = (hdrScan evs).step e := by simp [hdrScan]

/-- pHeaders after a callback. -/
def ptrAfter (base : Nat) (p : Option Nat) : PEv → Option Nat
  | .headerField off _ => headersStart p (base + off)
  | _ => p

/-- pBufferCur after a callback. -/
def curAfter (base : Nat) (c : Option Nat) : PEv → Option Nat
  | .status off len _ | .headerField off len | .headerValue off len | .body off len => some (base + off + len)
  | _ => c

/-- Length of the header section, given the first header and the current position. -/
def lenOf : Option Nat → Nat → Nat
  | none, _ => 0
  | some p, c => c - p

/-- headersLen after a callback. -/
def LenAfter (p c : Option Nat) (old new : Nat) : PEv → Prop
  | .headersComplete _ _ _ _ => ∃ x, c = some x ∧ new = lenOf p x
  | _ => new = old

/-- The effect of a callback on the location of the header section. -/
theorem callback_ptrs {cfg : Cfg} {b base : Nat} {e : PEv} {h h' : RS S σ} {r : CbRet} {w w' : World PLog σ}
    (hr : recvCallback cfg b base e h w = (.ok (r, h'), w')) :
    h'.resp.pHeaders = ptrAfter base h.resp.pHeaders e ∧ h'.ctx.cur = curAfter base h.ctx.cur e ∧
    LenAfter h.resp.pHeaders h.ctx.cur h.resp.headersLen h'.resp.headersLen e := by
  have hpch : ∀ (g g' : RS S σ) (u u' : World PLog σ), processCompleteHeader cfg b g u = (.ok g', u') →
      g'.resp.pHeaders = g.resp.pHeaders ∧ g'.ctx.cur = g.ctx.cur ∧ g'.resp.headersLen = g.resp.headersLen := by
    intro g g' u u' hg
    unfold processCompleteHeader at hg
    have hsame : (pure g : M PLog σ (RS S σ)) u = (.ok g', u') →
        g'.resp.pHeaders = g.resp.pHeaders ∧ g'.ctx.cur = g.ctx.cur ∧ g'.resp.headersLen = g.resp.headersLen := by
      intro hg
      simp only [M.pure_apply, Prod.mk.injEq, Run.ok.injEq] at hg
      rw [← hg.1]; exact ⟨rfl, rfl, rfl⟩
    cases hlf : g.ctx.lastField with
    | none => simp only [hlf] at hg; exact hsame hg
    | some f =>
      cases hlv : g.ctx.lastValue with
      | none => simp only [hlf, hlv] at hg; exact hsame hg
      | some x =>
        simp only [hlf, hlv, M.bind_apply, mAssert, M.ofRun_apply, cAssert] at hg
        by_cases hd : g.resp.headerCount < 2 ^ cfg.sizeBits - 1
        · simp only [hd, decide_true, if_true] at hg
          cases hcb : g.resp.pHeaderParsingCallback with
          | none => simp only [hcb, M.pure_apply, Prod.mk.injEq, Run.ok.injEq] at hg; rw [← hg.1]; exact ⟨rfl, rfl, rfl⟩
          | some cb =>
            cases cb with
            | null => simp [hcb, M.bind_apply] at hg
            | user cb =>
            simp only [hcb, M.bind_apply, M.world_apply, M.ofRun_apply] at hg
            rcases h1 : memRead (u.mem b) f g.ctx.lastFieldLen with y | y | _ <;> rw [h1] at hg <;> try (simp at hg; done)
            dsimp only at hg
            rcases h2 : memRead (u.mem b) x g.ctx.lastValueLen with z | z | _ <;> rw [h2] at hg <;> try (simp at hg; done)
            simp only [M.setEnv_apply, M.emit_apply, M.pure_apply, Prod.mk.injEq, Run.ok.injEq] at hg
            rw [← hg.1]; exact ⟨rfl, rfl, rfl⟩
        · simp [hd] at hg
  have hA : ∀ {α : Type} (l : Nat) (c : Bool) (k : Unit → M PLog σ α) (x : Run α × World PLog σ) (u : World PLog σ) (a : α) (u' : World PLog σ),
      ((mAssert l c >>= k) u = (.ok a, u')) → k () u = (.ok a, u') := by
    intro α l c k x u a u' hx
    cases c
    · simp [mAssert, cAssert] at hx
    · simpa using hx
  cases e with
  | messageBegin =>
    simp only [recvCallback, onMessageBegin, M.pure_apply, Prod.mk.injEq, Run.ok.injEq] at hr
    obtain ⟨⟨_, rfl⟩, _⟩ := hr
    exact ⟨rfl, rfl, rfl⟩
  | messageComplete =>
    simp only [recvCallback, onMessageComplete, M.pure_apply, Prod.mk.injEq, Run.ok.injEq] at hr
    obtain ⟨⟨_, rfl⟩, _⟩ := hr
    exact ⟨rfl, rfl, rfl⟩
  | status off len code =>
    have := hA _ _ _ (.more, w) _ _ _ hr
    simp only [M.pure_apply, Prod.mk.injEq, Run.ok.injEq] at this
    obtain ⟨⟨_, rfl⟩, _⟩ := this
    exact ⟨rfl, rfl, rfl⟩
  | statusComplete code =>
    have := hA _ _ _ (.more, w) _ _ _ hr
    simp only [M.pure_apply, Prod.mk.injEq, Run.ok.injEq] at this
    obtain ⟨⟨_, rfl⟩, _⟩ := this
    exact ⟨rfl, rfl, rfl⟩
  | headerValue off len =>
    have := hA _ _ _ (.more, w) _ _ _ hr
    simp only [M.pure_apply, Prod.mk.injEq, Run.ok.injEq] at this
    obtain ⟨⟨_, rfl⟩, _⟩ := this
    refine ⟨rfl, ?_, rfl⟩
    dsimp only
    split <;> rfl
  | body off len =>
    have h1 := hA _ _ _ (.more, w) _ _ _ hr
    have h2 := hA _ _ _ (.more, w) _ _ _ h1
    cases hpb : h.resp.pBody with
    | none =>
      simp only [hpb] at h2
      rw [if_neg (by omega)] at h2
      simp only [M.bind_apply, M.pure_apply, Prod.mk.injEq, Run.ok.injEq] at h2
      obtain ⟨⟨_, rfl⟩, _⟩ := h2
      exact ⟨rfl, rfl, rfl⟩
    | some p =>
      simp only [hpb] at h2
      by_cases hgt : base + off > p + h.resp.bodyLen
      · rw [if_pos hgt] at h2
        simp only [M.bind_apply, M.world_apply, M.ofRun_apply] at h2
        rcases q1 : memRead (w.mem b) (base + off) len with x | x | _ <;> rw [q1] at h2 <;> try (simp at h2; done)
        dsimp only at h2
        rcases q2 : memWrite (w.mem b) (p + h.resp.bodyLen) x with y | y | _ <;> rw [q2] at h2 <;> try (simp at h2; done)
        simp only [M.setMem_apply, M.pure_apply, Prod.mk.injEq, Run.ok.injEq] at h2
        obtain ⟨⟨_, rfl⟩, _⟩ := h2
        exact ⟨rfl, rfl, rfl⟩
      · rw [if_neg hgt] at h2
        simp only [M.bind_apply, M.pure_apply, Prod.mk.injEq, Run.ok.injEq] at h2
        obtain ⟨⟨_, rfl⟩, _⟩ := h2
        exact ⟨rfl, rfl, rfl⟩
  | headerField off len =>
    have h1 := hA _ _ _ (.more, w) _ _ _ hr
    simp only [M.bind_apply] at h1
    rcases hq : processCompleteHeader cfg b (⟨{ h.resp with pHeaders := headersStart h.resp.pHeaders (base + off) },
      { h.ctx with cur := some (base + off + len) }⟩ : RS S σ) w with ⟨x | x | _, u⟩ <;> rw [hq] at h1 <;> try (simp at h1; done)
    obtain ⟨p1, p2, p3⟩ := hpch _ _ _ _ hq
    dsimp only at h1
    cases hl : x.ctx.lastField with
    | none =>
      simp only [hl, M.pure_apply, Prod.mk.injEq, Run.ok.injEq] at h1
      obtain ⟨⟨_, rfl⟩, _⟩ := h1
      exact ⟨p1, p2, p3⟩
    | some f =>
      simp only [hl] at h1
      have h2 := hA _ _ _ (.more, w) _ _ _ h1
      simp only [M.pure_apply, Prod.mk.injEq, Run.ok.injEq] at h2
      obtain ⟨⟨_, rfl⟩, _⟩ := h2
      exact ⟨p1, p2, p3⟩
  | headersComplete at_ cl cc ka =>
    simp only [recvCallback, onHeadersComplete] at hr
    cases hc : h.ctx.cur with
    | none => simp [hc] at hr
    | some c =>
      simp only [hc] at hr
      have h1 := hA _ _ _ (.more, w) _ _ _ hr
      have h2 := hA _ _ _ (.more, w) _ _ _ h1
      have hlen : ∃ hl, (headersLength h.resp.pHeaders c : M PLog σ Nat) w = (.ok hl, w) ∧
          hl = lenOf h.resp.pHeaders c := by
        simp only [M.bind_apply] at h2
        unfold headersLength at h2 ⊢
        cases hp : h.resp.pHeaders with
        | none => exact ⟨0, rfl, rfl⟩
        | some p =>
          simp only [hp] at h2
          by_cases hlt : p < c
          · refine ⟨c - p, ?_, rfl⟩
            simp [hlt]
          · simp [hlt, mAssert, cAssert] at h2
      obtain ⟨hl, e1, e2⟩ := hlen
      simp only [M.bind_apply, e1] at h2
      generalize hg : (⟨_, h.ctx⟩ : RS S σ) = g at h2
      rcases hq : processCompleteHeader cfg b g w with ⟨x | x | _, u⟩ <;> rw [hq] at h2 <;> try (simp at h2; done)
      obtain ⟨p1, p2, p3⟩ := hpch _ _ _ _ hq
      simp only [M.pure_apply, Prod.mk.injEq, Run.ok.injEq] at h2
      obtain ⟨⟨_, rfl⟩, _⟩ := h2
      subst hg
      exact ⟨p1, p2.trans hc, c, rfl, p3.trans e2⟩

/-- The invariant together with the trace `evs` since the start of receiving. -/
structure TInv (cfg : Cfg) (strict : Bool) (b : Nat) (r0 : Resp σ) (head : Bool) (m0 : Mem) (log0 : List (Ev PLog)) (ph : Phase)
    (base lo : Nat) (evs : List (Ev PLog)) (h : RS S σ) (w : World PLog σ) : Prop where
  core : RInv cfg strict r0 head (received evs) ph base lo (view (obsOf evs)) (bodySpan (obsOf evs)) h (w.mem b)
  log : w.log = log0 ++ evs
  frame : FrameBuf m0 w.mem b r0.bufferLen
  each : EachEv (EvGood r0.bufferLen) evs
  rep : strict = true → reported evs = if r0.pHeaderParsingCallback.isSome then (view (obsOf evs)).headers else []
  pausedAt : ph = .paused → r0.respOptionFlags &&& DO_NOT_PARSE_BODY_FLAG ≠ 0 ∧
    ∃ os o, obsOf evs = os ++ [o] ∧ (∃ a c d e, o.ev = .headersComplete a c d e) ∧ o.loc = lo
  prog : (view (obsOf evs)).state = ph.msg
  noHc : r0.respOptionFlags &&& DO_NOT_PARSE_BODY_FLAG ≠ 0 → ph ≠ .paused → (view (obsOf evs)).contentLength = none
  headNb : head = true → (ph ≠ .body ∧ ph ≠ .tfield ∧ ph ≠ .tvalue) ∧ ∀ o ∈ obsOf evs, o.isBody = false
  x : XInv ph base lo evs h
  loc : LocInv r0.pHeaderParsingCallback.isSome evs h.ctx

/-- Events that occur while the parser runs. -/
def Ev.inParse : Ev PLog → Bool
  | .parserEvent (.obs _) => true
  | .parserEvent (.mem _) => true
  | .header _ _ _ _ _ => true
  | _ => false

/-- The events of one run of the parser, ending with this result. -/
def IsSeg (seg : List (Ev PLog)) (er : Errno) (ep : Nat) : Prop :=
  ∃ s0, seg = s0 ++ [.parserEvent (.ret er ep)] ∧ ∀ e ∈ s0, e.inParse = true

theorem inParse_received {l : List (Ev PLog)} (h : ∀ e ∈ l, e.inParse = true) : received l = [] ∧ parsed l = [] ∧ recvs l = [] := by
  induction l with
  | nil => exact ⟨rfl, rfl, rfl⟩
  | cons x xs ih =>
    have := ih fun e he => h e (List.mem_cons_of_mem _ he)
    have hx := h x List.mem_cons_self
    cases x <;> simp_all [received, parsed, recvs, Ev.inParse]

theorem IsSeg.received {seg : List (Ev PLog)} {er : Errno} {ep : Nat} (h : IsSeg seg er ep) : received seg = [] ∧ parsed seg = [] ∧ recvs seg = [] := by
  obtain ⟨s0, rfl, h0⟩ := h
  obtain ⟨h1, h2, h3⟩ := inParse_received h0
  simp [h1, h2, h3, Spec.received, parsed, recvs]

variable {cfg : Cfg} {strict : Bool} {r0 : Resp σ} {head : Bool} {base : Nat} {b : Nat} {m0 : Mem} {log0 : List (Ev PLog)} {data : Bytes}

/-- Bodies of observations in an invariant state. -/
theorem mem_good {ph lo} {v : View} {evs : List (Ev PLog)} {h : RS S σ} {blk : Bytes} {os : List PObs} {stream : Bytes}
    (hi : RInv cfg strict r0 head stream ph base lo v (bodySpan os) h blk) : ∀ i, i < stream.length →
      ((∀ o ∈ os, o.isBody = true → i < o.loc) ∨ (∀ o ∈ os, o.isBody = true → o.loc + o.data.length ≤ i)) → blk[i]? = stream[i]? := by
  intro i h1 h2
  apply hi.agree i h1
  intro p e he
  rcases bodySpan_spec os with ⟨h3, _⟩ | ⟨p', e', h3, ⟨o, ho, hb, hl⟩, ⟨o', ho', hb', hl'⟩⟩
  · rw [h3] at he; cases he
  · rw [h3] at he; cases he
    rcases h2 with h2 | h2
    · have := h2 o ho hb; left; omega
    · have := h2 o' ho' hb'; right; omega

theorem span_le {e : PEv} {dlen lo : Nat} {ph : Phase} (hev : EvOk strict base dlen ph lo e) : e.span.1 + e.span.2 ≤ dlen := by
  cases e with
  | messageBegin => exact Nat.zero_le _
  | status off len code => exact hev.2.2.1
  | statusComplete code => exact Nat.zero_le _
  | headerField off len => exact hev.1.2.1
  | headerValue off len => exact hev.1.2.1
  | headersComplete at_ cl cc ka => exact hev.2.2.2
  | body off len => exact hev.2.2.1
  | messageComplete => exact Nat.zero_le _

theorem view_flush_state (v : View) : v.flush.state = v.state := by
  unfold View.flush; split <;> rfl

theorem view_flush_contentLength (v : View) : v.flush.contentLength = v.contentLength := by
  unfold View.flush; split <;> rfl

theorem msg_step {e : PEv} {dlen lo : Nat} {ph : Phase} {v : View} {data : Bytes} {r : CbRet} (hev : EvOk strict base dlen ph lo e)
    (hv : v.state = ph.msg) : (v.step (e.observe base data)).state = (ph.next e r).msg := by
  cases e with
  | messageBegin => rfl
  | status off len code => obtain ⟨rfl, _⟩ := hev; exact hv
  | statusComplete code => obtain rfl := hev; exact hv
  | headerField off len =>
    simp only [View.step, PEv.observe, view_flush_state, hv, Phase.next]
    rcases hev with ⟨_, ⟨rfl | rfl | rfl | rfl, _⟩ | ⟨rfl | rfl, _⟩⟩ <;> rfl
  | headerValue off len =>
    simp only [View.step, PEv.observe, hv]
    rcases hev with ⟨_, rfl | rfl | rfl | rfl, _⟩ <;> cases r <;> rfl
  | headersComplete at_ cl cc ka =>
    simp only [View.step, PEv.observe, view_flush_state, hv]
    rcases hev with ⟨rfl | rfl, _⟩ <;> cases r <;> rfl
  | body off len => obtain ⟨rfl, _⟩ := hev; exact hv
  | messageComplete => rfl

theorem next_paused {ph : Phase} {e : PEv} {r : CbRet} (h : ph.next e r = .paused) :
    (∃ a c d f, e = .headersComplete a c d f) ∧ r = .pause := by
  cases e with
  | headersComplete a c d f =>
    refine ⟨⟨a, c, d, f, rfl⟩, ?_⟩
    cases r <;> simp_all [Phase.next]
  | headerField off len => simp only [Phase.next] at h; split at h <;> cases h
  | headerValue off len =>
    cases r with
    | user => cases h
    | _ => simp only [Phase.next] at h; split at h <;> cases h
  | _ => cases h

theorem hdrScan_obs_callAt (a : HdrScan) (o : PObs) : (a.obs o).callAt = a.callAt := by
  unfold HdrScan.obs; split <;> rfl

/-- Events that do not matter for the location of the header section. -/
theorem XInv.skip {ph : Phase} {base lo : Nat} {evs : List (Ev PLog)} {h : RS S σ} {e : Ev PLog} (hi : XInv ph base lo evs h)
    (h1 : (hdrScan evs).step e = hdrScan evs) (h2 : obsOf [e] = []) : XInv ph base lo (evs ++ [e]) h where
  ptr := by rw [hdrScan_snoc, h1]; exact hi.ptr
  len := by rw [hdrScan_snoc, h1]; exact hi.len
  cur := by rw [hdrScan_snoc, h1]; exact hi.cur
  le := by rw [hdrScan_snoc, h1]; exact hi.le
  late := by rw [obsOf_append, h2, List.append_nil]; exact hi.late

theorem contentLength_step {v : View} {o : PObs} (h : v.contentLength.isSome = true) : (v.step o).contentLength.isSome = true := by
  unfold View.step
  split <;> simp_all [view_flush_contentLength]

theorem XInv.stepped {ph : Phase} {base lo : Nat} {evs : List (Ev PLog)} {h h' : RS S σ} {e : PEv} {cfg : Cfg} {b : Nat} {r : CbRet}
    {w w' : World PLog σ} {data : Bytes} (hi : XInv ph base lo evs h) (hca : (hdrScan evs).callAt = base)
    (hev : EvOk strict base data.length ph lo e)
    (hrun : recvCallback cfg b base e h w = (.ok (r, h'), w')) :
    XInv (ph.next e r) base (endPos base lo e) (evs ++ [.parserEvent (.obs (e.observe base data))]) h' := by
  obtain ⟨c1, c2, c3⟩ := callback_ptrs hrun
  have hsl := span_le hev
  have hll : ((data.drop e.span.1).take e.span.2).length = e.span.2 := by
    simp only [List.length_take, List.length_drop]; omega
  have hnp : ph ≠ .paused := by
    rintro rfl
    cases e <;> simp [EvOk] at hev
  have hcur := hi.cur hnp
  have hle := hi.le
  have hlate : (ph.next e r).late → (view (obsOf (evs ++ [.parserEvent (.obs (e.observe base data))]))).contentLength.isSome = true := by
    simp only [obsOf_append, obsOf, view_snoc]
    intro hl
    cases e with
    | headersComplete at_ cl cc ka => rfl
    | _ =>
      apply contentLength_step
      apply hi.late
      revert hl hev
      simp only [EvOk, Phase.next]
      cases ph <;> cases r <;> simp [Phase.late]
  cases e with
  | headersComplete at_ cl cc ka =>
    obtain ⟨c, c3, c4⟩ := c3
    have hc : c = max (hdrScan evs).lastEnd base := by rw [c3] at hcur; simpa using hcur
    exact {
      ptr := by rw [hdrScan_snoc]; exact c1.trans hi.ptr
      len := by
        rw [hdrScan_snoc, c4, hi.ptr, hc]
        simp only [HdrScan.step, HdrScan.obs, PEv.observe, hca, lenOf]
        cases (hdrScan evs).first <;> rfl
      cur := fun _ => by
        rw [hdrScan_snoc]
        exact c2.trans hcur
      le := by
        rw [hdrScan_snoc]
        simp only [HdrScan.step, HdrScan.obs, PEv.observe, endPos, EvOk] at hev ⊢
        omega
      late := hlate }
  | status off len code =>
    exact {
      ptr := by rw [hdrScan_snoc]; exact c1.trans hi.ptr
      len := by rw [hdrScan_snoc]; exact c3.trans hi.len
      cur := fun _ => by
        rw [hdrScan_snoc, c2]
        simp only [HdrScan.step, HdrScan.obs, PEv.observe, hll]
        simp only [PEv.span, curAfter]; congr 1; omega
      le := by
        rw [hdrScan_snoc]
        simp only [HdrScan.step, HdrScan.obs, PEv.observe, endPos, PEv.span] at hll ⊢; omega
      late := hlate }
  | headerValue off len =>
    exact {
      ptr := by rw [hdrScan_snoc]; exact c1.trans hi.ptr
      len := by rw [hdrScan_snoc]; exact c3.trans hi.len
      cur := fun _ => by
        rw [hdrScan_snoc, c2]
        simp only [HdrScan.step, HdrScan.obs, PEv.observe, hll]
        simp only [PEv.span, curAfter]; congr 1; omega
      le := by
        rw [hdrScan_snoc]
        simp only [HdrScan.step, HdrScan.obs, PEv.observe, endPos, PEv.span] at hll ⊢; omega
      late := hlate }
  | body off len =>
    exact {
      ptr := by rw [hdrScan_snoc]; exact c1.trans hi.ptr
      len := by rw [hdrScan_snoc]; exact c3.trans hi.len
      cur := fun _ => by
        rw [hdrScan_snoc, c2]
        simp only [HdrScan.step, HdrScan.obs, PEv.observe, hll]
        simp only [PEv.span, curAfter]; congr 1; omega
      le := by
        rw [hdrScan_snoc]
        simp only [HdrScan.step, HdrScan.obs, PEv.observe, endPos, PEv.span] at hll ⊢; omega
      late := hlate }
  | headerField off len =>
    exact {
      ptr := by
        rw [hdrScan_snoc, c1, hi.ptr]
        simp only [HdrScan.step, HdrScan.obs, PEv.observe, PEv.span]
        cases (hdrScan evs).first <;> rfl
      len := by rw [hdrScan_snoc]; exact c3.trans hi.len
      cur := fun _ => by
        rw [hdrScan_snoc, c2]
        simp only [HdrScan.step, HdrScan.obs, PEv.observe, hll]
        simp only [PEv.span, curAfter]; congr 1; omega
      le := by
        rw [hdrScan_snoc]
        simp only [HdrScan.step, HdrScan.obs, PEv.observe, endPos, PEv.span] at hll ⊢; omega
      late := hlate }
  | messageBegin =>
    exact {
      ptr := by rw [hdrScan_snoc]; exact c1.trans hi.ptr
      len := by rw [hdrScan_snoc]; exact c3.trans hi.len
      cur := fun _ => by rw [hdrScan_snoc]; exact c2.trans hcur
      le := by rw [hdrScan_snoc]; exact hle
      late := hlate }
  | statusComplete code =>
    exact {
      ptr := by rw [hdrScan_snoc]; exact c1.trans hi.ptr
      len := by rw [hdrScan_snoc]; exact c3.trans hi.len
      cur := fun _ => by rw [hdrScan_snoc]; exact c2.trans hcur
      le := by rw [hdrScan_snoc]; exact hle
      late := hlate }
  | messageComplete =>
    exact {
      ptr := by rw [hdrScan_snoc]; exact c1.trans hi.ptr
      len := by rw [hdrScan_snoc]; exact c3.trans hi.len
      cur := fun _ => by rw [hdrScan_snoc]; exact c2.trans hcur
      le := by rw [hdrScan_snoc]; exact hle
      late := hlate }

theorem runTree_inv {Inv : S → Phase → Nat → Nat → Prop} (tree : PTree S) :
    ∀ (ph : Phase) (lo : Nat) (evs : List (Ev PLog)) (h : RS S σ) (w : World PLog σ),
    TInv cfg strict b r0 head m0 log0 ph base lo evs h w → TreeOk strict Inv base data.length tree ph lo →
    data = (received evs).drop base → (hdrScan evs).callAt = base → (data.length = 0 → base < r0.bufferLen) →
    ∃ er ep s h' w' seg ph' lo',
      runTree b base data (recvCallback cfg b base) tree h w = (.ok (er, ep, s, h'), w') ∧
      TInv cfg strict b r0 head m0 log0 ph' base lo' (evs ++ seg) h' w' ∧
      DoneOk Inv base data.length er ep s ph' lo' ∧ IsSeg seg er ep ∧
      obsOf seg = (tree.run (policy r0.respOptionFlags head)).1.map (·.observe base data) ∧
      (er, ep, s) = (tree.run (policy r0.respOptionFlags head)).2 := by
  induction tree with
  | done er ep s =>
    intro ph lo evs h w hi hok hdata hca hz
    refine ⟨er, ep, s, h, _, [.parserEvent (.ret er ep)], ph, lo, rfl, ?_, hok, ⟨[], rfl, by simp⟩, rfl, rfl⟩
    exact {
      core := by simpa [received, obsOf] using hi.core
      log := by simp [hi.log]
      frame := hi.frame
      each := hi.each.snoc trivial
      rep := by simpa [reported, obsOf] using hi.rep
      pausedAt := by simpa [obsOf] using hi.pausedAt
      prog := by simpa [obsOf] using hi.prog
      noHc := by simpa [obsOf] using hi.noHc
      headNb := by simpa [obsOf] using hi.headNb
      x := hi.x.skip rfl rfl
      loc := hi.loc.skip rfl rfl rfl }
  | call e k ih =>
    intro ph lo evs h w hi hok hdata hca hz
    obtain ⟨hev, hk⟩ := hok
    have hdl : (received evs).length - base = data.length := by rw [hdata]; simp
    obtain ⟨h', blk', s', hevs, hrun, hcore, hhdr, hlen, hdrop⟩ := recvCallback_step
      (w := { w with log := w.log ++ [.parserEvent (.obs (e.observe base data))] }) hi.core (by rw [hdl]; exact hev)
      (by rw [hdl]; exact hz)
    dsimp only at hrun hlen hdrop
    rw [← hdata] at hcore hhdr
    have hobs : obsOf hevs = [] ∧ received hevs = [] ∧ ∀ e ∈ hevs, e.inParse = true := by
      rcases hhdr with ⟨rfl, _⟩ | ⟨fl, fb, vl, vb, c, rfl, _⟩
      · exact ⟨rfl, rfl, by simp⟩
      · exact ⟨rfl, rfl, by simp [Ev.inParse]⟩
    obtain ⟨ho1, ho2, ho3⟩ := hobs
    have hsl := span_le hev
    have hfits := hi.core.fits
    have hbl := hi.core.base_le
    have hoseq : obsOf (evs ++ ([.parserEvent (.obs (e.observe base data))] ++ hevs ++ [.parserEvent (.mem blk')])) =
        obsOf evs ++ [e.observe base data] := by simp [obsOf, ho1]
    have hreq : received (evs ++ ([.parserEvent (.obs (e.observe base data))] ++ hevs ++ [.parserEvent (.mem blk')])) = received evs := by
      simp [received, ho2]
    have hobsgood : EvGood r0.bufferLen evs (.parserEvent (.obs (e.observe base data))) := by
      simp only [EvGood, PEv.observe]
      have hll : ((data.drop e.span.1).take e.span.2).length = e.span.2 := by
        simp only [List.length_take, List.length_drop]; omega
      rw [hll]
      refine ⟨by omega, by rw [hdata, slice_slice], ?_⟩
      rintro ⟨at_, cl, cc, ka, rfl⟩
      have h1 := hev.2.2.1
      simp only [hca, PEv.span]
      omega
    have hcore' : RInv cfg strict r0 head (received (evs ++ ([.parserEvent (.obs (e.observe base data))] ++ hevs ++ [.parserEvent (.mem blk')])))
        (ph.next e (policy r0.respOptionFlags head e)) base (endPos base lo e)
        (view (obsOf (evs ++ ([.parserEvent (.obs (e.observe base data))] ++ hevs ++ [.parserEvent (.mem blk')]))))
        (bodySpan (obsOf (evs ++ ([.parserEvent (.obs (e.observe base data))] ++ hevs ++ [.parserEvent (.mem blk')])))) h'
        ((w.mem.set b blk') b) := by
      rw [hreq, hoseq, view_snoc, bodySpan_snoc, Mem.set_same]
      exact hcore
    have hi' : TInv cfg strict b r0 head m0 log0 (ph.next e (policy r0.respOptionFlags head e)) base (endPos base lo e)
        (evs ++ ([.parserEvent (.obs (e.observe base data))] ++ hevs ++ [.parserEvent (.mem blk')])) h'
        ⟨s', w.mem.set b blk', w.log ++ [.parserEvent (.obs (e.observe base data))] ++ hevs ++ [.parserEvent (.mem blk')]⟩ := {
      core := hcore'
      log := by simp [hi.log]
      frame := by
        refine ⟨fun i hne => ?_, ?_, ?_⟩
        · dsimp only
          rw [Mem.set_other _ _ hne]; exact hi.frame.1 i hne
        · dsimp only
          rw [Mem.set_same, hlen]; exact hi.frame.2.1
        · dsimp only
          rw [Mem.set_same, ← hi.frame.2.2]
          have := congrArg (List.drop (r0.bufferLen - (received evs).length)) hdrop
          rw [List.drop_drop, List.drop_drop] at this
          rwa [show (received evs).length + (r0.bufferLen - (received evs).length) = r0.bufferLen by omega] at this
      each := by
        have h1 := hi.each.snoc hobsgood
        have hr1 : received (evs ++ [.parserEvent (.obs (e.observe base data))]) = received evs := by simp [received]
        have h2 : EachEv (EvGood r0.bufferLen) (evs ++ [.parserEvent (.obs (e.observe base data))] ++ hevs) := by
          rcases hhdr with ⟨rfl, _⟩ | ⟨fl, fb, vl, vb, c, rfl, _, q1, q2, q3, q4, _⟩
          · simpa using h1
          · exact h1.snoc (by simp only [EvGood, hr1]; exact ⟨q1, q2, q3, q4⟩)
        have h3 := h2.snoc (e := .parserEvent (.mem blk')) (by
          simp only [EvGood]
          have e1 : received (evs ++ [.parserEvent (.obs (e.observe base data))] ++ hevs) = received evs := by simp [received, ho2]
          have e2 : obsOf (evs ++ [.parserEvent (.obs (e.observe base data))] ++ hevs) = obsOf evs ++ [e.observe base data] := by
            simp [obsOf, ho1]
          rw [e1, e2]
          have : RInv cfg strict r0 head (received evs) (ph.next e (policy r0.respOptionFlags head e)) base (endPos base lo e)
              ((view (obsOf evs)).step (e.observe base data)) (bodySpan (obsOf evs ++ [e.observe base data])) h' blk' := by
            rw [bodySpan_snoc]; exact hcore
          exact mem_good (evs := evs) this)
        simpa using h3
      rep := by
        intro h0
        rw [hoseq, view_snoc]
        simp only [reported_append]
        rw [hi.rep h0]
        rcases hhdr with ⟨rfl, hn | hn⟩ | ⟨fl, fb, vl, vb, c, rfl, q0, q1, q2, q3, q4, q5⟩
        · simp [reported, hn]
        · simp [reported, hn]
        · obtain ⟨vb', q5, _, q6⟩ := q5
          simp [reported, q0, q5, q6 h0]
      pausedAt := by
        intro hp
        obtain ⟨⟨a, c, d, f, rfl⟩, hr⟩ := next_paused hp
        refine ⟨?_, obsOf evs, _, hoseq, ⟨a, c, d, f, rfl⟩, rfl⟩
        intro h0
        simp only [policy, h0, ne_eq, not_true_eq_false, if_false] at hr
        split at hr <;> cases hr
      prog := by
        rw [hoseq, view_snoc]
        exact msg_step hev hi.prog
      noHc := by
        intro h0 hp
        rw [hoseq, view_snoc]
        have hph : ph ≠ .paused := by
          rintro rfl
          cases e <;> simp [EvOk] at hev
        have := hi.noHc h0 hph
        cases e with
        | headersComplete a c d f => simp [policy, h0, Phase.next] at hp
        | headerField off len =>
          simp only [View.step, PEv.observe]
          rw [view_flush_contentLength]; exact this
        | _ => exact this
      headNb := by
        intro h0
        obtain ⟨⟨n1, n2, n3⟩, n4⟩ := hi.headNb h0
        rw [hoseq]
        have hall : (e.observe base data).isBody = false → ∀ o ∈ obsOf evs ++ [e.observe base data], o.isBody = false := by
          intro h1 o ho
          rw [List.mem_append] at ho
          rcases ho with ho | ho
          · exact n4 o ho
          · rw [List.mem_singleton.mp ho]; exact h1
        cases e with
        | body off len => exact absurd hev.1 n1
        | headersComplete a c d f =>
          refine ⟨?_, hall rfl⟩
          simp only [policy, h0, if_true]
          split <;> simp [Phase.next]
        | headerField off len =>
          refine ⟨?_, hall rfl⟩
          simp [Phase.next, n1, n2, n3]
        | headerValue off len =>
          refine ⟨?_, hall rfl⟩
          simp [Phase.next, policy, n2, n3]
        | messageBegin => exact ⟨by simp [Phase.next], hall rfl⟩
        | status off len code => exact ⟨by simp [Phase.next], hall rfl⟩
        | statusComplete code => exact ⟨by simp [Phase.next], hall rfl⟩
        | messageComplete => exact ⟨by simp [Phase.next], hall rfl⟩
      x := by
        have h1 : XInv (ph.next e (policy r0.respOptionFlags head e)) base (endPos base lo e)
          (evs ++ [.parserEvent (.obs (e.observe base data))]) h' := hi.x.stepped hca hev hrun
        rw [show evs ++ ([Ev.parserEvent (.obs (e.observe base data))] ++ hevs ++ [Ev.parserEvent (.mem blk')]) =
          (evs ++ [.parserEvent (.obs (e.observe base data))]) ++ hevs ++ [Ev.parserEvent (.mem blk')] by simp]
        refine XInv.skip ?_ rfl rfl
        rcases hhdr with ⟨rfl, _⟩ | ⟨fl, fb, vl, vb, c, rfl, _⟩
        · simpa using h1
        · exact h1.skip rfl rfl
      loc := by
        obtain ⟨m, d, hl, k1, k2, k3⟩ := callback_pieces (data := data) hrun hi.loc.ctx
        dsimp only at k2
        have hhl : hl = hevs := (List.append_cancel_left k2).symm
        subst hhl
        rw [hi.core.cb] at k3
        have h2 := hi.loc.at_
        have h3 := hi.loc.len
        have h4 : LocInv r0.pHeaderParsingCallback.isSome (evs ++ [Ev.parserEvent (.obs (e.observe base data))] ++ hl) h'.ctx := {
          ctx := by
            rw [obsOf_append, obsOf_append, ho1, List.append_nil]
            rw [show obsOf [Ev.parserEvent (.obs (e.observe base data))] = [e.observe base data] from rfl, pieces_snoc]
            exact m
          at_ := by
            rw [obsOf_append, obsOf_append, ho1, List.append_nil, reportedAt_append, reportedAt_append, h2, k3]
            rw [show obsOf [Ev.parserEvent (.obs (e.observe base data))] = [e.observe base data] from rfl]
            unfold valuePieces
            rw [pieces_snoc, k1]
            cases r0.pHeaderParsingCallback.isSome <;> simp [reportedAt]
          len := by
            rw [obsOf_append, obsOf_append, ho1, List.append_nil, reported_append, reported_append]
            rw [show obsOf [Ev.parserEvent (.obs (e.observe base data))] = [e.observe base data] from rfl, view_snoc]
            rw [show reported [Ev.parserEvent (.obs (e.observe base data))] = [] from rfl, List.append_nil]
            unfold lens at h3 ⊢
            rw [List.map_append, h3]
            rcases hhdr with ⟨rfl, hn | hn⟩ | ⟨fl, fb, vl, vb, c, rfl, q0, q1, q2, q3, q4, q5⟩
            · simp [reported, hn]
            · simp [reported, hn]
            · obtain ⟨vb', q5, q6, _⟩ := q5
              simp [reported, q0, q5, q6]
          vals := by
            rw [obsOf_append, obsOf_append, ho1, List.append_nil]
            rw [show obsOf [Ev.parserEvent (.obs (e.observe base data))] = [e.observe base data] from rfl, view_snoc, pieces_snoc]
            intro stream hst
            refine Vals.step (hi.loc.vals stream fun o ho => hst o (List.mem_append_left _ ho)) (hst _ (by simp)) ?_
            rintro ⟨off, len, he⟩
            obtain rfl : e = .headerValue off len := he
            rw [← hi.loc.ctx.1]
            have hpt := hi.core.ptrs
            rcases hev.2.1 with h6 | h6 | h6 | h6 <;> rw [h6] at hpt
            · obtain ⟨f, h7, _⟩ := hpt; rw [h7]; rfl
            · obtain ⟨f, x, h7, _⟩ := hpt; rw [h7]; rfl
            · obtain ⟨f, h7, _⟩ := hpt; rw [h7]; rfl
            · obtain ⟨f, x, h7, _⟩ := hpt; rw [h7]; rfl }
        have h5 := h4.skip (e := Ev.parserEvent (.mem blk')) rfl rfl rfl
        simpa only [List.append_assoc] using h5 }
    have hca' : (hdrScan (evs ++ ([Ev.parserEvent (.obs (e.observe base data))] ++ hevs ++ [Ev.parserEvent (.mem blk')]))).callAt = base := by
      rw [← hca]
      rcases hhdr with ⟨rfl, _⟩ | ⟨fl, fb, vl, vb, c, rfl, _⟩
      · simp [hdrScan, HdrScan.step, hdrScan_obs_callAt]
      · simp [hdrScan, HdrScan.step, hdrScan_obs_callAt]
    obtain ⟨er, ep, s, h'', w', seg, ph', lo', r1, r2, r3, ⟨s0, r4, r5⟩, r6, r7⟩ := ih (policy r0.respOptionFlags head e) _ _ _ _ _ hi'
      (hk _ (policy_retOk _ _ _)) (by rw [hreq]; exact hdata) hca' hz
    refine ⟨er, ep, s, h'', w', [.parserEvent (.obs (e.observe base data))] ++ hevs ++ [.parserEvent (.mem blk')] ++ seg, ph', lo', ?_, ?_, r3,
      ⟨[.parserEvent (.obs (e.observe base data))] ++ hevs ++ [.parserEvent (.mem blk')] ++ s0, by rw [r4]; simp, ?_⟩, ?_, ?_⟩
    · simp only [runTree, M.bind_apply, M.emit_apply, hrun, M.world_apply, Mem.set_same]
      exact r1
    · simpa only [List.append_assoc] using r2
    · intro x hx
      simp only [List.mem_append, List.mem_singleton] at hx
      rcases hx with ((rfl | hx) | rfl) | hx
      · rfl
      · exact ho3 x hx
      · rfl
      · exact r5 x hx
    · simp [obsOf, ho1, r6, PTree.run]
    · exact r7

end CoreHttp

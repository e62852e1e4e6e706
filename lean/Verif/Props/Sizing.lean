import Verif.Props.Room
import Verif.Spec.Sizing

/-! # C120: the buffer a request needs can be calculated in advance -/

namespace CoreHttp.Props
open CoreHttp Spec Spec.Sizing
variable {σ π : Type} {cfg : Cfg}

theorem block_strip {l : Bytes} {hs : List (Bytes × Bytes)} (hl : crlf <:+ l) :
    stripBlankLine (requestBlock l hs) = l ++ headerLines hs := by
  unfold requestBlock
  apply strip_crlf
  by_cases hne : hs = []
  · subst hne; simpa [headerLines] using hl
  · obtain ⟨pre, p, hp⟩ : ∃ pre p, hs = pre ++ [p] := ⟨_, _, (List.dropLast_concat_getLast hne).symm⟩
    rw [hp, headerLines_append, ← List.append_assoc]
    have : headerLines [p] = headerLine p.1 p.2 := by simp [headerLines]
    rw [this]
    exact crlf_suffix_headerLine _ _ _

theorem block_snoc (l : Bytes) (hs : List (Bytes × Bytes)) (p : Bytes × Bytes) :
    requestBlock l (hs ++ [p]) = l ++ headerLines hs ++ headerLine p.1 p.2 ++ crlf := by
  unfold requestBlock
  rw [headerLines_append]
  simp [headerLines, List.append_assoc]

theorem block_mono (l : Bytes) (hs ks : List (Bytes × Bytes)) :
    (requestBlock l hs).length ≤ (requestBlock l (hs ++ ks)).length := by
  unfold requestBlock
  rw [headerLines_append]
  simp only [List.length_append]; omega

theorem block_piece_le (l : Bytes) (hs : List (Bytes × Bytes)) {ks : List (Bytes × Bytes)} {p : Bytes × Bytes} (hp : p ∈ ks) :
    p.1.length + p.2.length + 6 ≤ (requestBlock l (hs ++ ks)).length := by
  obtain ⟨a, c, rfl⟩ := List.append_of_mem hp
  unfold requestBlock
  rw [headerLines_append, headerLines_append]
  have : headerLines (p :: c) = headerLine p.1 p.2 ++ headerLines c := by simp [headerLines]
  rw [this]
  simp only [List.length_append, headerLine, crlf, List.length_cons, List.length_nil]; omega

/-- What is known of a request object that holds the block. -/
def Holding (cfg : Cfg) (m : Mem) (h : ReqHeaders) (b : Nat) (l : Bytes) (hs : List (Bytes × Bytes)) : Prop :=
  HasBlock cfg m h b (requestBlock l hs) ∧ crlf <:+ l ∧ ∀ p ∈ hs, p.1 ≠ [] ∧ CleanField p.1 ∧ CleanValue p.2

/-- One addition. -/
theorem piece_step {m : Mem} {h : ReqHeaders} {b : Nat} {l : Bytes} {hs : List (Bytes × Bytes)} {p : Piece}
    (hua : cfg.userAgent ≠ []) (hB : Holding cfg m h b l hs) (hp : p.Good) (hop : OpOk cfg h.bufferLen p.call)
    (hsize : h.bufferLen + (p.line.1.length + p.line.2.length + 6) < 2 ^ cfg.sizeBits) :
    ∃ st h' m', runBuildOp cfg m h p.call = .ok (st, some h', m') ∧ h'.bufferLen = h.bufferLen ∧ HasBuf m' h' b ∧
      ((requestBlock l (hs ++ [p.line])).length ≤ h.bufferLen → st = .success ∧ Holding cfg m' h' b l (hs ++ [p.line])) ∧
      (h.bufferLen < (requestBlock l (hs ++ [p.line])).length → st = .insufficientMemory ∧ Holding cfg m' h' b l hs) := by
  obtain ⟨hblk, hl, hcl⟩ := hB
  have hbuf : HasBuf m h b := ⟨hblk.buf, hblk.real⟩
  have hlen : (requestBlock l (hs ++ [p.line])).length =
      (stripBlankLine (headerBlock m h)).length + p.line.1.length + p.line.2.length + 6 := by
    rw [hblk.eq, block_strip hl, block_snoc]
    simp only [List.length_append, headerLine, crlf, List.length_cons, List.length_nil]; omega
  obtain ⟨st, h', m', e, hb', hbl', hle', hfr, _, _, habs⟩ := runBuildOp_spec (op := p.call) hua hblk.buf hblk.real hop
  have hst : (st = .insufficientMemory ↔ h.bufferLen < (stripBlankLine (headerBlock m h)).length + p.line.1.length + p.line.2.length + 6) ∧
      (st = .success ∨ st = .insufficientMemory) := by
    have hhle := hblk.le
    cases p with
    | header f v =>
      obtain ⟨hf, hv, hcf, hcv⟩ := hp
      simp only [Piece.line] at hsize
      obtain ⟨st2, h2, m2, e2, _, _, _, _, hi, _, _, hc, _, _, hcase⟩ :=
        addHeader_full (cfg := cfg) (m := m) (h := h) (b := b) (f := f) (v := v) ⟨hbuf, hblk.le, hf, hv, by omega⟩
      have e' : HTTPClient_AddHeader cfg m (some h) (some f) (some v) = .ok (st, some h', m') := e
      rw [e'] at e2
      cases e2
      refine ⟨hi, ?_⟩
      rcases hcase with h0 | h0 | h0
      · exact .inl h0
      · exact .inr h0
      · exact absurd ⟨hcf, hcv⟩ (hc.1 h0).2
    | range s t =>
      obtain ⟨hs32, he32, hv⟩ := hp
      obtain ⟨st2, h2, m2, e2, hinv, hcase, hi⟩ := C15_range_accepted_iff (cfg := cfg) (m := m) (h := h) (b := b) hbuf hblk.le hop
      have e' : HTTPClient_AddRangeHeader cfg m (some h) s t = .ok (st, some h', m') := e
      rw [e'] at e2
      cases e2
      have h5 : (ascii "Range").length = 5 := by decide
      refine ⟨?_, ?_⟩
      · show _ ↔ h.bufferLen < _ + (ascii "Range").length + _ + 6
        rw [h5, hi]
        exact ⟨fun h0 => h0.2, fun h0 => ⟨hv, h0⟩⟩
      · rcases hcase with h0 | h0 | h0
        · exact .inl h0
        · exact .inr h0
        · have := hinv.1 h0
          obtain ⟨v1, v2, v3, v4⟩ := hv
          omega
  refine ⟨st, h', m', e, hbl', ⟨hb', by rw [hbl', hfr.2.1]; exact hblk.real⟩, fun hfit => ?_, fun hno => ?_⟩
  rotate_left
  · have hno' : st = .insufficientMemory := hst.1.2 (by omega)
    subst hno'
    refine ⟨rfl, ?_⟩
    exact habs (some (l, hs)) (fun l' hs' h0 => by cases h0; exact ⟨hblk, hl, hcl⟩) l hs (by cases p <;> rfl)
  have hok : st = .success := by
    rcases hst.2 with h0 | h0
    · exact h0
    · have := hst.1.1 h0; omega
  subst hok
  refine ⟨rfl, ?_⟩
  exact habs (some (l, hs)) (fun l' hs' h0 => by cases h0; exact ⟨hblk, hl, hcl⟩) l (hs ++ [p.line]) (by cases p <;> rfl)

/-- All additions. -/
theorem pieces_run {b : Nat} {l : Bytes} (hua : cfg.userAgent ≠ []) : ∀ (ps : List Piece) {m : Mem} {h : ReqHeaders} {hs : List (Bytes × Bytes)},
    Holding cfg m h b l hs → (∀ p ∈ ps, p.Good) → (∀ p ∈ ps, OpOk cfg h.bufferLen p.call) →
    (∀ p ∈ ps, h.bufferLen + (p.line.1.length + p.line.2.length + 6) < 2 ^ cfg.sizeBits) →
    ∃ sts h' m', runBuildOps cfg m h (ps.map Piece.call) = .ok (sts, h', m') ∧ h'.bufferLen = h.bufferLen ∧
      (∀ st ∈ sts, st = .success ∨ st = .insufficientMemory) ∧
      ((requestBlock l (hs ++ ps.map Piece.line)).length ≤ h.bufferLen →
        (∀ st ∈ sts, st = .success) ∧ Holding cfg m' h' b l (hs ++ ps.map Piece.line)) ∧
      (h.bufferLen < (requestBlock l (hs ++ ps.map Piece.line)).length → .insufficientMemory ∈ sts) := by
  intro ps
  induction ps with
  | nil =>
    intro m h hs hB _ _ _
    refine ⟨[], h, m, rfl, rfl, by simp, fun _ => ⟨by simp, by simpa using hB⟩, fun h0 => ?_⟩
    have h1 := hB.1.le
    have h2 := hB.1.len
    simp only [List.map_nil, List.append_nil] at h0
    omega
  | cons p ps ih =>
    intro m h hs hB hg ho hz
    have hm : p ∈ p :: ps := by simp
    obtain ⟨st, h1, m1, e1, hbl1, _, hfit, hno⟩ := piece_step hua hB (hg p hm) (ho p hm) (hz p hm)
    have hg' : ∀ q ∈ ps, q.Good := fun q hq => hg q (by simp [hq])
    have ho' : ∀ q ∈ ps, OpOk cfg h1.bufferLen q.call := fun q hq => by rw [hbl1]; exact ho q (by simp [hq])
    have hz' : ∀ q ∈ ps, h1.bufferLen + (q.line.1.length + q.line.2.length + 6) < 2 ^ cfg.sizeBits := fun q hq => by
      rw [hbl1]; exact hz q (by simp [hq])
    have happ : hs ++ (p :: ps).map Piece.line = hs ++ [p.line] ++ ps.map Piece.line := by simp
    rw [happ]
    by_cases hf : (requestBlock l (hs ++ [p.line])).length ≤ h.bufferLen
    · obtain ⟨rfl, hB1⟩ := hfit hf
      obtain ⟨sts, h', m', e, hbl, hall, hyes, hnot⟩ := ih hB1 hg' ho' hz'
      refine ⟨.success :: sts, h', m', ?_, hbl.trans hbl1, ?_, fun h0 => ?_, fun h0 => ?_⟩
      · simp only [List.map_cons, runBuildOps, e1, Run.ok_bind, e]
      · intro st hst
        rcases List.mem_cons.1 hst with h0 | h0
        · exact .inl h0
        · exact hall st h0
      · obtain ⟨ha, hB'⟩ := hyes (by rw [hbl1]; exact h0)
        refine ⟨fun st hst => ?_, hB'⟩
        rcases List.mem_cons.1 hst with h0 | h0
        · exact h0
        · exact ha st h0
      · exact List.mem_cons_of_mem _ (hnot (by rw [hbl1]; exact h0))
    · obtain ⟨rfl, hB1⟩ := hno (by omega)
      obtain ⟨sts, h', m', e, hbl, hall, _, _⟩ := ih hB1 hg' ho' hz'
      refine ⟨.insufficientMemory :: sts, h', m', ?_, hbl.trans hbl1, ?_, fun h0 => ?_, fun _ => by simp⟩
      · simp only [List.map_cons, runBuildOps, e1, Run.ok_bind, e]
      · intro st hst
        rcases List.mem_cons.1 hst with h0 | h0
        · exact .inr h0
        · exact hall st h0
      · have := block_mono l (hs ++ [p.line]) (ps.map Piece.line)
        omega

/-- **C120.** For every request that follows the documentation, planned as a description and any list of additions, and every buffer: if the planned text is no
longer than the buffer, every call that builds it succeeds and the buffer holds the text; if it is longer by as little as one byte, one of the calls returns
HTTPInsufficientMemory. The size can be calculated before the first call. -/
theorem C120_size_exact {m : Mem} {h : ReqHeaders} {b : Nat} {me ho : Bytes} {path : Option Bytes} {flags : UInt32} {ps : List Piece}
    (hua : cfg.userAgent ≠ []) (hbuf : HasBuf m h b) (hme : me ≠ []) (hho : ho ≠ []) (hclh : CleanValue ho)
    (hcu : flags.toNat.testBit 1 = false → CleanValue cfg.userAgent) (hg : ∀ p ∈ ps, p.Good)
    (hsize : h.bufferLen + (plannedText cfg.userAgent me path ho flags ps).length + 38 < 2 ^ cfg.sizeBits) :
    ∃ sts h' m', runBuildOps cfg m h (plannedCalls me path ho flags ps) = .ok (sts, h', m') ∧
      ((plannedText cfg.userAgent me path ho flags ps).length ≤ h.bufferLen →
        (∀ st ∈ sts, st = .success) ∧ HasBuf m' h' b ∧ h'.bufferLen = h.bufferLen ∧
        headerBlock m' h' = plannedText cfg.userAgent me path ho flags ps ∧
        h'.headersLen = (plannedText cfg.userAgent me path ho flags ps).length) ∧
      (h.bufferLen < (plannedText cfg.userAgent me path ho flags ps).length → .insufficientMemory ∈ sts) := by
  have hmono := block_mono (requestLine me (effectivePath path)) (documentedHeaders cfg.userAgent ho flags.toNat) (ps.map Piece.line)
  have hpt : plannedText cfg.userAgent me path ho flags ps = requestBlock (requestLine me (effectivePath path))
      (documentedHeaders cfg.userAgent ho flags.toNat ++ ps.map Piece.line) := rfl
  rw [hpt] at hsize ⊢
  have hz : ∀ p ∈ ps, h.bufferLen + (p.line.1.length + p.line.2.length + 6) < 2 ^ cfg.sizeBits := fun p hp => by
    have := block_piece_le (requestLine me (effectivePath path)) (documentedHeaders cfg.userAgent ho flags.toNat)
      (List.mem_map_of_mem (f := Piece.line) hp)
    omega
  have ho1 : OpOk cfg h.bufferLen (.init (some ⟨some me, path, some ho, flags⟩)) := ⟨by
    show h.bufferLen + (requestBlock (requestLine me (effectivePath path)) (documentedHeaders cfg.userAgent ho flags.toNat)).length < _
    omega, trivial⟩
  have hop : ∀ p ∈ ps, OpOk cfg h.bufferLen p.call := fun p hp => by
    have h1 := hz p hp
    have h2 := hg p hp
    cases p with
    | header f v => exact ⟨by simp only [Piece.line] at h1; simp only [Piece.call, opSize]; omega, trivial⟩
    | range s e => exact ⟨by simp only [Piece.call, opSize]; omega, h2.1, h2.2.1⟩
  obtain ⟨st, h1, m1, e1, hiff, hins, _⟩ := C02_init_success_iff (cfg := cfg) (m := m) (h := h) (b := b) (me := me) (ho := ho) (path := path)
    (flags := flags) hua hbuf hme hho (by omega)
  obtain ⟨st', h1', m1', e1', hb1, hbl1, _, hfr1, _, _, habs⟩ := runBuildOp_spec (op := .init (some ⟨some me, path, some ho, flags⟩)) hua hbuf.1 hbuf.2 ho1
  have e1'' : HTTPClient_InitializeRequestHeaders cfg m (some h) (some ⟨some me, path, some ho, flags⟩) = .ok (st', some h1', m1') := e1'
  rw [e1] at e1''
  cases e1''
  have hop1 : ∀ p ∈ ps, OpOk cfg h1.bufferLen p.call := by rw [hbl1]; exact hop
  by_cases hfit : (requestBlock (requestLine me (effectivePath path)) (documentedHeaders cfg.userAgent ho flags.toNat)).length ≤ h.bufferLen
  · have hst : st = .success := hiff.2 ⟨hfit, hclh, hcu⟩
    subst hst
    have hB : Holding cfg m1 h1 b (requestLine me (effectivePath path)) (documentedHeaders cfg.userAgent ho flags.toNat) :=
      habs none (by simp) _ _ rfl
    obtain ⟨sts, h', m', e, hbl, hall, hyes, hnot⟩ := pieces_run hua ps hB hg hop1 (by rw [hbl1]; exact hz)
    rw [hbl1] at hyes hnot
    refine ⟨.success :: sts, h', m', ?_, fun h0 => ?_, fun h0 => List.mem_cons_of_mem _ (hnot h0)⟩
    · simp only [plannedCalls, runBuildOps, e1', Run.ok_bind, e]
    · obtain ⟨ha, hB'⟩ := hyes h0
      refine ⟨fun st hst => ?_, ⟨hB'.1.buf, hB'.1.real⟩, hbl.trans hbl1, hB'.1.eq, hB'.1.len⟩
      rcases List.mem_cons.1 hst with h0 | h0
      · exact h0
      · exact ha st h0
  · have hst : st = .insufficientMemory := hins hclh hcu (by omega)
    subst hst
    obtain ⟨sts, h', m', e, _⟩ := runBuildOps_spec hua (ps.map Piece.call) m1 h1 b none hb1 (by rw [hbl1, hfr1.2.1]; exact hbuf.2) (by
      intro op hop'
      obtain ⟨p, hp, rfl⟩ := List.mem_map.1 hop'
      exact hop1 p hp)
    refine ⟨.insufficientMemory :: sts, h', m', ?_, fun h0 => by omega, fun _ => by simp⟩
    simp only [plannedCalls, runBuildOps, e1', Run.ok_bind, e]

/-- **C120, with a body.** Sending such a request with a body whose Content-Length the library writes needs 18 bytes and one byte for each decimal digit of the
body's length more, exactly: with less room nothing is sent and HTTPInsufficientMemory is returned; with as much the send never fails for want of room, and what
it sends when it succeeds is the planned text with the Content-Length header. -/
theorem C120_body_exact {w : World π σ} {T : Transport σ} {send : σ → Bytes → Int × σ} {clock : TimeFn σ} {h : ReqHeaders} {b n : Nat} {me ho : Bytes}
    {path : Option Bytes} {flags sendFlags : UInt32} {ps : List Piece} (pre : SendPre cfg T send clock w.mem h b)
    (hhold : headerBlock w.mem h = plannedText cfg.userAgent me path ho flags ps)
    (hadd : addsContentLength n sendFlags.toNat = true) (hmax : n ≤ 2147483647) (fuel : Nat) :
    (h.bufferLen < (plannedText cfg.userAgent me path ho flags ps).length + (18 + (decimal n).length) →
      HTTPClient_SendHttpHeaders cfg fuel (some T) clock (some h) n sendFlags w = (.ok (.insufficientMemory, some h), w)) ∧
    ((plannedText cfg.userAgent me path ho flags ps).length + (18 + (decimal n).length) ≤ h.bufferLen →
      ∃ r w' evs, HTTPClient_SendHttpHeaders cfg fuel (some T) clock (some h) n sendFlags w = (r, w') ∧ w'.log = w.log ++ evs ∧
        (∀ st oh, r = .ok (st, oh) → st ≠ .insufficientMemory) ∧
        (∀ oh, r = .ok (.success, oh) →
          accepted evs = wireHeaders (plannedText cfg.userAgent me path ho flags ps) n sendFlags.toNat)) := by
  have hblank : crlf ++ crlf <:+ headerBlock w.mem h := by
    rw [hhold]
    have hl : crlf <:+ requestLine me (effectivePath path) := ⟨_, rfl⟩
    have hst := block_strip (hs := documentedHeaders cfg.userAgent ho flags.toNat ++ ps.map Piece.line) hl
    unfold plannedText
    unfold stripBlankLine at hst
    apply Classical.byContradiction
    intro hn
    rw [if_neg hn] at hst
    have := congrArg List.length hst
    have h2 : crlf.length = 2 := by decide
    simp only [requestBlock, List.length_append, h2] at this
    omega
  have hlen : h.headersLen = (plannedText cfg.userAgent me path ho flags ps).length := by
    rw [← hhold, block_length pre.buf pre.le]
  have hle := pre.le
  have hx := C81_room_exact (n := n) (flags := sendFlags) pre hblank hadd hmax fuel
  rw [hhold] at hx
  exact ⟨fun h0 => hx.1 (by omega), fun h0 => hx.2 (by omega)⟩

/-- A plan: GET of "/" from "example.com" with an Accept header and the first 500 bytes. -/
def exSized : List Piece := [.header (ascii "Accept") (ascii "*/*"), .range 0 499]

theorem exSized_good : ∀ p ∈ exSized, p.Good := by
  intro p hp
  simp only [exSized, List.mem_cons, List.not_mem_nil, or_false] at hp
  rcases hp with rfl | rfl
  · exact ⟨by decide, by decide, by decide, by decide⟩
  · exact ⟨by decide, by decide, by decide⟩

example : plannedText exCfg.userAgent (ascii "GET") none (ascii "example.com") 1 exSized =
    ascii "GET / HTTP/1.1\r\nUser-Agent: my-platform-name\r\nHost: example.com\r\nConnection: keep-alive\r\nAccept: */*\r\nRange: bytes=0-499\r\n\r\n" := by
  decide +kernel

/-- That text has 124 bytes: in a buffer of 124 bytes the three calls succeed, in one of 123 they do not. -/
theorem exPlanned_length : (plannedText exCfg.userAgent (ascii "GET") none (ascii "example.com") 1 exSized).length = 124 := by decide +kernel

example : ∃ sts h' m', runBuildOps exCfg exMem ⟨some 0, 124, 0⟩ (plannedCalls (ascii "GET") none (ascii "example.com") 1 exSized) = .ok (sts, h', m') ∧
    ∀ st ∈ sts, st = .success := by
  obtain ⟨sts, h', m', e, hyes, _⟩ := C120_size_exact (cfg := exCfg) (m := exMem) (h := ⟨some 0, 124, 0⟩) (b := 0) (me := ascii "GET") (ho := ascii "example.com")
    (path := none) (flags := 1) (ps := exSized) (by decide) ⟨rfl, by simp only [exMem, List.length_replicate]; decide⟩ (by decide) (by decide) (by decide) (fun _ => by decide) exSized_good
    (by rw [exPlanned_length]; decide)
  exact ⟨sts, h', m', e, (hyes (by rw [exPlanned_length]; decide)).1⟩

example : ∃ sts h' m', runBuildOps exCfg exMem ⟨some 0, 123, 0⟩ (plannedCalls (ascii "GET") none (ascii "example.com") 1 exSized) = .ok (sts, h', m') ∧
    Status.insufficientMemory ∈ sts := by
  obtain ⟨sts, h', m', e, _, hno⟩ := C120_size_exact (cfg := exCfg) (m := exMem) (h := ⟨some 0, 123, 0⟩) (b := 0) (me := ascii "GET") (ho := ascii "example.com")
    (path := none) (flags := 1) (ps := exSized) (by decide) ⟨rfl, by simp only [exMem, List.length_replicate]; decide⟩ (by decide) (by decide) (by decide) (fun _ => by decide) exSized_good
    (by rw [exPlanned_length]; decide)
  exact ⟨sts, h', m', e, hno (by rw [exPlanned_length]; decide)⟩

/-- The built request, sent with a body of 5 bytes is refused for want of room from a buffer of fewer than 143 = 124 + 18 + 1 bytes, and from no other. -/
example (env : ExEnv) (k : Nat) (hk : 124 ≤ k) (hk2 : k ≤ 256) : ∃ sts h' m', runBuildOps exCfg exMem ⟨some 0, k, 0⟩
      (plannedCalls (ascii "GET") none (ascii "example.com") 1 exSized) = .ok (sts, h', m') ∧ (∀ st ∈ sts, st = .success) ∧
    (k < 124 + 19 → HTTPClient_SendHttpHeaders exCfg 9 (some exTransport) (.user exClock) (some h') 5 0 (⟨env, m', []⟩ : World Unit ExEnv) =
      (.ok (.insufficientMemory, some h'), ⟨env, m', []⟩)) ∧
    (124 + 19 ≤ k → ∃ r w', HTTPClient_SendHttpHeaders exCfg 9 (some exTransport) (.user exClock) (some h') 5 0 (⟨env, m', []⟩ : World Unit ExEnv) = (r, w') ∧
      ∀ st oh, r = .ok (st, oh) → st ≠ .insufficientMemory) := by
  have hl : (plannedText exCfg.userAgent (ascii "GET") none (ascii "example.com") 1 exSized).length = 124 := exPlanned_length
  have hbits : 2 ^ exCfg.sizeBits = 4294967296 := by decide
  have hmem : ∀ i, (exMem i).length = 256 := fun i => by simp only [exMem, List.length_replicate]
  obtain ⟨sts, h', m', e, hyes, _⟩ := C120_size_exact (cfg := exCfg) (m := exMem) (h := ⟨some 0, k, 0⟩) (b := 0) (me := ascii "GET") (ho := ascii "example.com")
    (path := none) (flags := 1) (ps := exSized) (by decide) ⟨rfl, by show k ≤ _; rw [hmem]; exact hk2⟩ (by decide) (by decide) (by decide) (fun _ => by decide)
    exSized_good (by rw [hl, hbits]; show k + 124 + 38 < _; omega)
  obtain ⟨ha, hb, hbl, ht, hn⟩ := hyes (by rw [hl]; exact hk)
  have hbl' : h'.bufferLen = k := hbl
  have hd : (decimal 5).length = 1 := by decide
  have hx := C120_body_exact (cfg := exCfg) (w := (⟨env, m', []⟩ : World Unit ExEnv)) (T := exTransport) (send := exSend) (clock := .user exClock) (h := h')
    (b := 0) (n := 5) (sendFlags := 0) ⟨rfl, exSendOk, (by intro h; cases h), hb, by rw [hn, hl, hbl']; exact hk, by rw [hbl', hbits]; omega⟩ ht (by decide) (by decide) 9
  rw [hl, hd, hbl'] at hx
  refine ⟨sts, h', m', e, ha, fun h0 => hx.1 (by omega), fun h0 => ?_⟩
  obtain ⟨r, w', evs, e', _, h1, _⟩ := hx.2 (by omega)
  exact ⟨r, w', e', h1⟩

end CoreHttp.Props

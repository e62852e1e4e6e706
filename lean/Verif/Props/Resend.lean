import Verif.Props.Room
import Verif.Lemmas.SendRecv

/-! # C20, exactly: what a request object that is sent again and again puts on the wire

An application that keeps a connection open commonly builds one request object and calls HTTPClient_Send or HTTPClient_SendHttpHeaders with it once for each
body. Every such call leaves its Content-Length line in the object (core_http_client.c:1926–1960, 1714–1751). -/

namespace CoreHttp.Props
open CoreHttp Spec
variable {π σ : Type} {cfg : Cfg} {T : Transport σ} {send : σ → Bytes → Int × σ} {clock : TimeFn σ} {b : Nat} {flags : UInt32}

/-- The application's loop: HTTPClient_SendHttpHeaders with the same object for each body length in turn, until one call does not return HTTPSuccess. -/
def sendEach (cfg : Cfg) (fuel : Nat) (T : Transport σ) (clock : TimeFn σ) (flags : UInt32) :
    List Nat → ReqHeaders → M π σ (Status × Option ReqHeaders)
  | [], h => pure (.success, some h)
  | n :: ns, h => do
    let r ← HTTPClient_SendHttpHeaders cfg fuel (some T) clock (some h) n flags
    match r with
    | (.success, some h') => sendEach cfg fuel T clock flags ns h'
    | (st, oh) => pure (st, oh)

/-- `block` with one Content-Length line for each of `ns`, in order. -/
def withLengths (block : Bytes) (ns : List Nat) : Bytes :=
  stripBlankLine block ++ ns.flatMap (fun n => headerLine (ascii "Content-Length") (decimal n)) ++ crlf

/-- Everything the server receives: for the i-th send, the block with the lengths of all sends up to and including that one. -/
def allBlocks (block : Bytes) (ns : List Nat) : Bytes :=
  (List.range ns.length).flatMap fun i => withLengths block (ns.take (i + 1))

/-- The bytes the Content-Length lines take. -/
def lengthsRoom (ns : List Nat) : Nat := (ns.map fun n => 18 + (decimal n).length).sum

theorem withLengths_one (block : Bytes) {n f : Nat} (ha : addsContentLength n f = true) : wireHeaders block n f = withLengths block [n] := by
  unfold wireHeaders withLengths
  rw [if_pos ha]
  simp

theorem withLengths_blank (block : Bytes) (n : Nat) : crlf ++ crlf <:+ withLengths block [n] := by
  refine ⟨stripBlankLine block ++ (ascii "Content-Length" ++ [58, 32] ++ decimal n), ?_⟩
  simp [withLengths, headerLine]

theorem withLengths_cons (block : Bytes) (n : Nat) (ns : List Nat) : withLengths (withLengths block [n]) ns = withLengths block (n :: ns) := by
  have : stripBlankLine (withLengths block [n]) = stripBlankLine block ++ headerLine (ascii "Content-Length") (decimal n) := by
    unfold withLengths
    simp only [List.flatMap_cons, List.flatMap_nil, List.append_nil]
    refine strip_crlf ⟨stripBlankLine block ++ (ascii "Content-Length" ++ [58, 32] ++ decimal n), ?_⟩
    simp [headerLine]
  unfold withLengths at this ⊢
  rw [this]
  simp

theorem withLengths_nil {block : Bytes} (hblank : crlf ++ crlf <:+ block) : withLengths block [] = block := by
  obtain ⟨p, rfl⟩ := hblank
  unfold withLengths
  rw [show p ++ (crlf ++ crlf) = (p ++ crlf) ++ crlf by simp, strip_crlf (List.suffix_append _ _)]
  simp

theorem allBlocks_cons (block : Bytes) (n : Nat) (ns : List Nat) :
    allBlocks block (n :: ns) = withLengths block [n] ++ allBlocks (withLengths block [n]) ns := by
  unfold allBlocks
  simp only [List.length_cons, List.range_succ_eq_map, List.flatMap_cons, List.take_succ_cons, List.take_zero, List.flatMap_map, withLengths_cons]

/-- **C20, exactly.** For every request object whose block ends in its blank line, every transport and clock, and every list of positive body lengths up to
INT32_MAX sent one after another with that object: no run faults; every run that ends returns HTTPSuccess, HTTPNetworkError or HTTPInsufficientMemory;
HTTPInsufficientMemory is returned only if the Content-Length lines of all the sends together do not fit behind the headers, and HTTPSuccess for all only if
they do; and then the i-th block the server received carries the Content-Length lines of all i sends, as does the object at the end. -/
theorem C20_resend_exact (fuel : Nat) (ns : List Nat) : ∀ {h : ReqHeaders} {w : World π σ}, SendPre cfg T send clock w.mem h b →
    crlf ++ crlf <:+ headerBlock w.mem h → (∀ n ∈ ns, addsContentLength n flags.toNat = true ∧ n ≤ 2147483647) →
    ∃ r w' evs, sendEach cfg fuel T clock flags ns h w = (r, w') ∧ w'.log = w.log ++ evs ∧ FrameBuf w.mem w'.mem b h.bufferLen ∧ r.Safe ∧
      (∀ st oh, r = .ok (st, oh) →
        (st = .success ∨ st = .networkError ∨ st = .insufficientMemory) ∧
        (st = .insufficientMemory → h.bufferLen < h.headersLen + lengthsRoom ns) ∧
        (st = .success → h.headersLen + lengthsRoom ns ≤ h.bufferLen ∧ accepted evs = allBlocks (headerBlock w.mem h) ns ∧
          ∃ h', oh = some h' ∧ headerBlock w'.mem h' = withLengths (headerBlock w.mem h) ns)) := by
  induction ns with
  | nil =>
    intro h w pre hblank _
    refine ⟨_, w, [], rfl, by simp, FrameBuf.refl .., (by intro f h0; cases h0), fun st oh hr => ?_⟩
    simp only [Run.ok.injEq, Prod.mk.injEq] at hr
    obtain ⟨rfl, rfl⟩ := hr
    refine ⟨.inl rfl, (by intro h0; cases h0), fun _ => ⟨pre.le, rfl, h, rfl, (withLengths_nil hblank).symm⟩⟩
  | cons n ns ih =>
    intro h w pre hblank hns
    obtain ⟨ha, hmax⟩ := hns n (by simp)
    have hlen := wireHeaders_grow hblank ha
    rw [block_length pre.buf pre.le] at hlen
    have hroom : lengthsRoom (n :: ns) = (18 + (decimal n).length) + lengthsRoom ns := by simp [lengthsRoom]
    by_cases hfit : (wireHeaders (headerBlock w.mem h) n flags.toNat).length ≤ h.bufferLen
    · obtain ⟨r, w1, evs1, e, hl, _, hacc, hst, hfr⟩ := C17_content_length (flags := flags) pre hmax hfit fuel
      have hsafe : r.Safe := by
        obtain ⟨r', w2, _, e', _, hs, _⟩ := C19_safe_partial (flags := flags) pre hmax fuel
        rw [e] at e'
        obtain ⟨rfl, _⟩ := Prod.mk.inj e'
        exact hs
      unfold sendEach
      simp only [M.bind_apply, e]
      match r, hst, hacc, hsafe with
      | .ok (st, oh), hst, hacc, _ =>
        obtain ⟨h0, h', rfl, hb, hbl, hB, hl'⟩ := hst st oh rfl
        rcases h0 with rfl | rfl
        · have pre1 : SendPre cfg T send clock w1.mem h' b :=
            ⟨pre.transport, pre.sendOk, pre.clockOk, ⟨hb.trans pre.buf.1, by rw [hbl, hfr.2.1]; exact pre.buf.2⟩,
              by rw [hl', hB, hbl]; exact hfit, by rw [hbl]; exact pre.size⟩
          rw [withLengths_one _ ha] at hB
          obtain ⟨r2, w2, evs2, e2, hl2, hfr2, hsafe2, hr2⟩ := ih pre1 (hB ▸ withLengths_blank _ _) (fun m hm => hns m (by simp [hm]))
          refine ⟨r2, w2, evs1 ++ evs2, e2, by rw [hl2, hl, List.append_assoc], hfr.trans (hbl ▸ hfr2), hsafe2, fun st oh hr => ?_⟩
          obtain ⟨k1, k2, k3⟩ := hr2 st oh hr
          have hh : h'.headersLen = h.headersLen + (18 + (decimal n).length) := by rw [hl', hB, ← withLengths_one _ ha, hlen]
          refine ⟨k1, fun h0 => ?_, fun h0 => ?_⟩
          · have := k2 h0; rw [hbl] at this; omega
          · obtain ⟨a1, a2, h2, rfl, a3⟩ := k3 h0
            rw [hbl] at a1
            refine ⟨by omega, ?_, h2, rfl, ?_⟩
            · rw [accepted_append', hacc _ rfl, a2, hB, allBlocks_cons, withLengths_one _ ha]
            · rw [a3, hB, withLengths_cons]
        · refine ⟨_, w1, evs1, rfl, hl, hfr, (by intro f h0; cases h0), fun st oh hr => ?_⟩
          simp only [Run.ok.injEq, Prod.mk.injEq] at hr
          obtain ⟨rfl, rfl⟩ := hr
          exact ⟨.inr (.inl rfl), (by intro h0; cases h0), (by intro h0; cases h0)⟩
      | .fault f, _, _, hsafe => exact ⟨_, w1, evs1, rfl, hl, hfr, hsafe, fun st oh hr => by cases hr⟩
      | .more, _, _, hsafe => exact ⟨_, w1, evs1, rfl, hl, hfr, hsafe, fun st oh hr => by cases hr⟩
    · unfold sendEach
      simp only [M.bind_apply, C18_nothing_sent pre hmax (Nat.lt_of_not_le hfit) fuel]
      refine ⟨_, w, [], rfl, by simp, FrameBuf.refl .., (by intro f h0; cases h0), fun st oh hr => ?_⟩
      simp only [Run.ok.injEq, Prod.mk.injEq] at hr
      obtain ⟨rfl, rfl⟩ := hr
      exact ⟨.inr (.inr rfl), fun _ => by omega, (by intro h0; cases h0)⟩

/-- **C20, the limit.** An object used for the same body length again and again is refused with HTTPInsufficientMemory or fails on the network, at the latest,
once it has been sent more often than `free bytes / (18 + digits)`: no run of that many sends succeeds. -/
theorem C20_resend_limit {n k : Nat} (fuel : Nat) {h : ReqHeaders} {w : World π σ} (pre : SendPre cfg T send clock w.mem h b)
    (hblank : crlf ++ crlf <:+ headerBlock w.mem h) (ha : addsContentLength n flags.toNat = true) (hmax : n ≤ 2147483647)
    (hk : (h.bufferLen - h.headersLen) / (18 + (decimal n).length) < k) :
    ∀ oh, (sendEach cfg fuel T clock flags (List.replicate k n) h w).1 ≠ .ok (.success, oh) := by
  intro oh hc
  obtain ⟨r, w', evs, e, _, _, _, hr⟩ := C20_resend_exact (flags := flags) fuel (List.replicate k n) pre hblank
    (fun m hm => by rw [List.eq_of_mem_replicate hm]; exact ⟨ha, hmax⟩)
  rw [e] at hc
  obtain ⟨h1, -, -⟩ := (hr _ _ hc).2.2 rfl
  have hroom : lengthsRoom (List.replicate k n) = k * (18 + (decimal n).length) := by
    simp [lengthsRoom, List.map_replicate, List.sum_replicate_nat]
  rw [hroom] at h1
  have := (Nat.div_lt_iff_lt_mul (by omega)).mp hk
  omega

/-- The hypotheses hold for "GET / HTTP/1.1\r\n\r\n" in 64 bytes, and two bodies of 5 and of 7 bytes fit: the second block the server receives
contradicts itself. A third does not fit. -/
example (e : ExEnv) : SendPre exCfg exTransport exSend (.user exClock) (⟨e, exMemS, []⟩ : World Unit ExEnv).mem ⟨some 0, 64, 18⟩ 0 ∧
    crlf ++ crlf <:+ headerBlock exMemS ⟨some 0, 64, 18⟩ ∧ (∀ n ∈ [5, 7], addsContentLength n (0 : UInt32).toNat = true ∧ n ≤ 2147483647) :=
  ⟨exPreRoom 64 (by decide) (by decide) e, by decide, by decide⟩
example : allBlocks (headerBlock exMemS ⟨some 0, 64, 18⟩) [5, 7] =
    ascii "GET / HTTP/1.1\r\nContent-Length: 5\r\n\r\n" ++
    ascii "GET / HTTP/1.1\r\nContent-Length: 5\r\nContent-Length: 7\r\n\r\n" := by decide +kernel
example : (18 : Nat) + lengthsRoom [5, 7] ≤ 64 ∧ 64 < 18 + lengthsRoom [5, 7, 9] := by decide +kernel
example : (64 - 18) / (18 + (decimal 5).length) < 3 := by decide +kernel

end CoreHttp.Props

import Verif.Lemmas.InitIndep
import Verif.Lemmas.ReadBack

/-!
# Properties C01–C16: building a request

Vocabulary: `headerBlock m h` is the first headersLen bytes of the request buffer in memory `m`; `HasBuf m h b` says the
object has a buffer (block `b`) at least as long as it claims. Specification functions are in `Verif/Spec`.
-/

namespace CoreHttp.Props
open CoreHttp Spec

/-- A configuration used for the non-vacuity examples: 32-bit size_t and the default macros. -/
def exCfg : Cfg := ⟨32, ascii "my-platform-name", 10, 10⟩
/-- A 256-byte zeroed buffer in every block. -/
def exMem : Mem := fun _ => List.replicate 256 0
/-- A request object using it. -/
def exHdr : ReqHeaders := ⟨some 0, 256, 0⟩
/-- A GET request with keep-alive. -/
def exInfo : ReqInfo := ⟨some (ascii "GET"), none, some (ascii "example.com"), 1⟩

/-- The example object has its buffer. -/
theorem exHasBuf : HasBuf exMem exHdr 0 := ⟨rfl, by simp only [exMem, exHdr, List.length_replicate, Nat.le_refl]⟩

/-! ## C01 -/

/-- **C01.** After a successful initialisation the header block is the request line, the documented headers, a blank line. -/
theorem C01_init_layout {cfg : Cfg} {m m' : Mem} {h h' : ReqHeaders} {b : Nat} {me ho : Bytes} {path : Option Bytes}
    {flags : UInt32} (hua : cfg.userAgent ≠ []) (hbuf : HasBuf m h b)
    (hsize : (requestBlock (requestLine me (effectivePath path)) (documentedHeaders cfg.userAgent ho flags.toNat)).length
      < 2 ^ cfg.sizeBits)
    (hrun : HTTPClient_InitializeRequestHeaders cfg m (some h) (some ⟨some me, path, some ho, flags⟩)
      = .ok (.success, some h', m')) :
    headerBlock m' h' = requestBlock (requestLine me (effectivePath path)) (documentedHeaders cfg.userAgent ho flags.toNat) ∧
    h'.headersLen = (headerBlock m' h').length := by
  have hme : me ≠ [] := by
    rintro rfl
    simp [HTTPClient_InitializeRequestHeaders, hbuf.1] at hrun
  have hho : ho ≠ [] := by
    rintro rfl
    simp [HTTPClient_InitializeRequestHeaders, hbuf.1, hme] at hrun
  have hi := initHeaders_eq cfg flags ho
  obtain ⟨st, h1, m1, e, _, _, _, _, _, hB, _⟩ := init_spec (cfg := cfg) (m := m) (h := h) (b := b)
    (info := ⟨some me, path, some ho, flags⟩) hbuf.1 rfl rfl hme hho (fun _ => hua) hbuf.2
    (by dsimp only; rw [hi, effectivePath_eq]; exact hsize)
  rw [hrun] at e
  simp only [Run.ok.injEq, Prod.mk.injEq, Option.some.injEq] at e
  obtain ⟨rfl, rfl, rfl⟩ := e
  have := hB rfl
  dsimp only at this
  rw [hi, effectivePath_eq] at this
  exact ⟨this.eq, by rw [this.eq]; exact this.len⟩

/-! ## C02 -/

/-- **C02.** For valid parameters initialisation succeeds iff the complete block fits and host and user agent (when it is
sent: bit 1 of the flags is HTTP_REQUEST_NO_USER_AGENT_FLAG) are clean; when it does not fit and they are clean the status
is HTTPInsufficientMemory; when it fits and they are not clean it is HTTPSecurityAlertInvalidCharacter; there is no other
status. -/
theorem C02_init_success_iff {cfg : Cfg} {m : Mem} {h : ReqHeaders} {b : Nat} {me ho : Bytes} {path : Option Bytes}
    {flags : UInt32} (hua : cfg.userAgent ≠ []) (hbuf : HasBuf m h b) (hme : me ≠ []) (hho : ho ≠ [])
    (hsize : (requestBlock (requestLine me (effectivePath path)) (documentedHeaders cfg.userAgent ho flags.toNat)).length
      < 2 ^ cfg.sizeBits) :
    ∃ st h' m', HTTPClient_InitializeRequestHeaders cfg m (some h) (some ⟨some me, path, some ho, flags⟩)
        = .ok (st, some h', m') ∧
      (st = .success ↔
        (requestBlock (requestLine me (effectivePath path)) (documentedHeaders cfg.userAgent ho flags.toNat)).length ≤ h.bufferLen ∧
        CleanValue ho ∧ (flags.toNat.testBit 1 = false → CleanValue cfg.userAgent)) ∧
      (CleanValue ho → (flags.toNat.testBit 1 = false → CleanValue cfg.userAgent) →
        h.bufferLen < (requestBlock (requestLine me (effectivePath path)) (documentedHeaders cfg.userAgent ho flags.toNat)).length →
        st = .insufficientMemory) ∧
      (¬ (CleanValue ho ∧ (flags.toNat.testBit 1 = false → CleanValue cfg.userAgent)) →
        (requestBlock (requestLine me (effectivePath path)) (documentedHeaders cfg.userAgent ho flags.toNat)).length ≤ h.bufferLen →
        st = .invalidCharacter) ∧
      (st = .success ∨ st = .insufficientMemory ∨ st = .invalidCharacter) := by
  have hi := initHeaders_eq cfg flags ho
  obtain ⟨st, h1, m1, e, _, _, _, _, hcase, _, hiff, hno, hfits⟩ := init_spec (cfg := cfg) (m := m) (h := h) (b := b)
    (info := ⟨some me, path, some ho, flags⟩) hbuf.1 rfl rfl hme hho (fun _ => hua) hbuf.2
    (by dsimp only; rw [hi, effectivePath_eq]; exact hsize)
  dsimp only at hiff hno hfits
  rw [hi, effectivePath_eq] at hiff hfits
  rw [hi] at hno
  have hclean : (∀ p ∈ documentedHeaders cfg.userAgent ho flags.toNat, CleanField p.1 ∧ CleanValue p.2) ↔
      CleanValue ho ∧ (flags.toNat.testBit 1 = false → CleanValue cfg.userAgent) := by
    constructor
    · intro hc
      refine ⟨(hc (ascii "Host", ho) (by simp [documentedHeaders])).2, fun hf => ?_⟩
      exact (hc (ascii "User-Agent", cfg.userAgent) (by simp [documentedHeaders, hf])).2
    · rintro ⟨h1, h2⟩ p hp
      simp only [documentedHeaders, List.mem_append] at hp
      rcases hp with (hp | hp) | hp
      · split at hp
        · simp at hp
        · rename_i hf
          simp at hp; subst hp
          exact ⟨show CleanField (ascii "User-Agent") by decide, h2 (by simpa using hf)⟩
      · simp at hp; subst hp; exact ⟨show CleanField (ascii "Host") by decide, h1⟩
      · split at hp
        · simp at hp; subst hp; exact ⟨by decide, by decide⟩
        · simp at hp
  refine ⟨st, h1, m1, e, ?_, ?_, ?_, hcase⟩
  · rw [hiff, hclean]
  · intro c1 c2 hlt
    have hn := hno (hclean.mpr ⟨c1, c2⟩)
    rcases hcase with h | h | h
    · have := (hiff.mp h).1; omega
    · exact h
    · exact absurd h hn
  · intro hc hle
    rcases hcase with h | h | h
    · exact absurd (hclean.mp (hiff.mp h).2) hc
    · exact absurd h (hfits hle)
    · exact h

/-- The hypotheses of C01 and C02 are met by an ordinary request, which succeeds. -/
example : ∃ h' m', HTTPClient_InitializeRequestHeaders exCfg exMem (some exHdr) (some exInfo) = .ok (.success, some h', m') ∧
    headerBlock m' h' = ascii ("GET / HTTP/1.1\r\nUser-Agent: my-platform-name\r\nHost: example.com\r\n" ++
      "Connection: keep-alive\r\n\r\n") := by
  have hb : HasBuf exMem exHdr 0 := exHasBuf
  obtain ⟨st, h', m', e, hiff, _⟩ := C02_init_success_iff (cfg := exCfg) (me := ascii "GET") (ho := ascii "example.com")
    (path := none) (flags := 1) (by decide) hb (by decide) (by decide) (by decide)
  have hst : st = .success := hiff.mpr ⟨by decide, by decide, by decide⟩
  subst hst
  refine ⟨h', m', e, ?_⟩
  rw [(C01_init_layout (by decide) hb (by decide) e).1]
  decide

/-! ## C03 -/

/-- **C03.** Initialisation gives the same status, length and header bytes whatever the buffer and headersLen were before. -/
theorem C03_init_independent {cfg : Cfg} {m1 m2 : Mem} {h1 h2 : ReqHeaders} {b1 b2 : Nat} {me ho : Bytes}
    {path : Option Bytes} {flags : UInt32} (hua : cfg.userAgent ≠ [])
    (hb1 : HasBuf m1 h1 b1) (hb2 : HasBuf m2 h2 b2) (hsame : h1.bufferLen = h2.bufferLen)
    (hsize : h1.bufferLen + (requestBlock (requestLine me (effectivePath path))
      (documentedHeaders cfg.userAgent ho flags.toNat)).length < 2 ^ cfg.sizeBits)
    (hme : me ≠ []) (hho : ho ≠ []) :
    ∃ st h1' h2' m1' m2',
      HTTPClient_InitializeRequestHeaders cfg m1 (some h1) (some ⟨some me, path, some ho, flags⟩) = .ok (st, some h1', m1') ∧
      HTTPClient_InitializeRequestHeaders cfg m2 (some h2) (some ⟨some me, path, some ho, flags⟩) = .ok (st, some h2', m2') ∧
      h1'.headersLen = h2'.headersLen ∧ headerBlock m1' h1' = headerBlock m2' h2' := by
  exact init_indep (info := ⟨some me, path, some ho, flags⟩) hb1.1 hb2.1 hsame rfl rfl hme hho hua hb1.2 hb2.2
    (by dsimp only; rw [initHeaders_eq, effectivePath_eq]; exact hsize)

/-- C03 applies to a fresh object and to a used one. -/
example : HasBuf exMem exHdr 0 ∧ HasBuf (fun _ => List.replicate 300 88) ⟨some 7, 256, 200⟩ 7 ∧
    exHdr.bufferLen = (⟨some 7, 256, 200⟩ : ReqHeaders).bufferLen := by
  refine ⟨exHasBuf, ⟨rfl, ?_⟩, rfl⟩
  simp only [List.length_replicate]; omega

/-! ## C04, C07, C13: one AddHeader call -/

/-- The object is valid for AddHeader and the new sizes are countable in size_t. -/
structure AddPre (cfg : Cfg) (m : Mem) (h : ReqHeaders) (b : Nat) (field value : Bytes) : Prop where
  buf : HasBuf m h b
  le : h.headersLen ≤ h.bufferLen
  field_ne : field ≠ []
  value_ne : value ≠ []
  size : h.headersLen + field.length + value.length + 6 < 2 ^ cfg.sizeBits

/-- The complete behaviour of one valid AddHeader call, from which C04, C07, C09, C13 are read off. -/
theorem addHeader_full {cfg : Cfg} {m : Mem} {h : ReqHeaders} {b : Nat} {f v : Bytes} (pre : AddPre cfg m h b f v) :
    ∃ st h' m', HTTPClient_AddHeader cfg m (some h) (some f) (some v) = .ok (st, some h', m') ∧
      h'.pBuffer = some b ∧ h'.bufferLen = h.bufferLen ∧ h'.headersLen ≤ h'.bufferLen ∧
      FrameBuf m m' b h.bufferLen ∧
      (st = .insufficientMemory ↔ h.bufferLen < (stripBlankLine (headerBlock m h)).length + f.length + v.length + 6) ∧
      (st = .insufficientMemory → h' = h ∧ m' = m) ∧
      (st = .success ↔ (stripBlankLine (headerBlock m h)).length + f.length + v.length + 6 ≤ h.bufferLen ∧
        CleanField f ∧ CleanValue v) ∧
      (st = .invalidCharacter ↔ (stripBlankLine (headerBlock m h)).length + f.length + v.length + 6 ≤ h.bufferLen ∧
        ¬ (CleanField f ∧ CleanValue v)) ∧
      (st = .invalidCharacter → h' = h ∧
        (m' b).take (stripBlankLine (headerBlock m h)).length = stripBlankLine (headerBlock m h)) ∧
      (st = .success → headerBlock m' h' = stripBlankLine (headerBlock m h) ++ headerLine f v ++ crlf ∧
        h'.headersLen = (headerBlock m' h').length) ∧
      (st = .success ∨ st = .insufficientMemory ∨ st = .invalidCharacter) := by
  have hk : (stripBlankLine (headerBlock m h)).length ≤ h.headersLen := by
    have h1 := strip_length_le (headerBlock m h)
    have h3 : (headerBlock m h).length ≤ h.headersLen := by
      simp only [headerBlock, pre.buf.1, List.length_take]; omega
    omega
  obtain ⟨st, h', m', e, rest⟩ := addHeader_block (cfg := cfg) pre.buf.1 pre.field_ne pre.value_ne pre.le pre.buf.2
    (by have := pre.size; omega)
  refine ⟨st, h', m', ?_, rest⟩
  rw [addHeader_api pre.buf.1 pre.field_ne pre.value_ne pre.le, e]; rfl

/-- **C04.** A successful AddHeader replaces the final blank line (if any) by the new line and a blank line; nothing else in the
header block changes; headersLen is the new length. -/
theorem C04_addHeader_appends {cfg : Cfg} {m m' : Mem} {h h' : ReqHeaders} {b : Nat} {f v : Bytes}
    (pre : AddPre cfg m h b f v)
    (hrun : HTTPClient_AddHeader cfg m (some h) (some f) (some v) = .ok (.success, some h', m')) :
    headerBlock m' h' = stripBlankLine (headerBlock m h) ++ f ++ ascii ": " ++ v ++ crlf ++ crlf ∧
    h'.headersLen = (headerBlock m' h').length := by
  obtain ⟨st, h1, m1, e, _, _, _, _, _, _, _, _, _, hB, _⟩ := addHeader_full pre
  rw [hrun] at e
  simp only [Run.ok.injEq, Prod.mk.injEq, Option.some.injEq] at e
  obtain ⟨rfl, rfl, rfl⟩ := e
  have := hB rfl
  refine ⟨?_, this.2⟩
  rw [this.1]
  have e2 : ascii ": " = [58, 32] := by decide
  simp [headerLine, e2, List.append_assoc]

/-- A block ending in a blank line is extended by exactly one line. -/
theorem C04_addHeader_one_line {cfg : Cfg} {m m' : Mem} {h h' : ReqHeaders} {b : Nat} {f v lines : Bytes}
    (pre : AddPre cfg m h b f v) (hblock : headerBlock m h = lines ++ crlf) (hline : crlf <:+ lines)
    (hrun : HTTPClient_AddHeader cfg m (some h) (some f) (some v) = .ok (.success, some h', m')) :
    headerBlock m' h' = lines ++ headerLine f v ++ crlf := by
  rw [(C04_addHeader_appends pre hrun).1, hblock, strip_crlf hline]
  have e2 : ascii ": " = [58, 32] := by decide
  simp [headerLine, e2, List.append_assoc]

/-- **C07.** AddHeader succeeds only for a field without CR, LF, ':' and a value without CR, LF; with room it reports
HTTPSecurityAlertInvalidCharacter exactly for the others. -/
theorem C07_no_injection {cfg : Cfg} {m : Mem} {h : ReqHeaders} {b : Nat} {f v : Bytes} (pre : AddPre cfg m h b f v) :
    ∃ st h' m', HTTPClient_AddHeader cfg m (some h) (some f) (some v) = .ok (st, some h', m') ∧
      (st = .success → CleanField f ∧ CleanValue v) ∧
      ((stripBlankLine (headerBlock m h)).length + f.length + v.length + 6 ≤ h.bufferLen →
        (st = .invalidCharacter ↔ ¬ (CleanField f ∧ CleanValue v)) ∧ (st = .success ↔ CleanField f ∧ CleanValue v)) := by
  obtain ⟨st, h', m', e, _, _, _, _, _, _, hs, hi, _, _, _⟩ := addHeader_full pre
  refine ⟨st, h', m', e, fun h => (hs.mp h).2, fun hfit => ⟨?_, ?_⟩⟩
  · rw [hi]; simp [hfit]
  · rw [hs]; simp [hfit]

/-- **C13.** AddHeader returns HTTPInsufficientMemory iff the kept block plus the new line does not fit, and then changes nothing. -/
theorem C13_insufficient_iff {cfg : Cfg} {m : Mem} {h : ReqHeaders} {b : Nat} {f v : Bytes} (pre : AddPre cfg m h b f v) :
    ∃ st h' m', HTTPClient_AddHeader cfg m (some h) (some f) (some v) = .ok (st, some h', m') ∧
      (st = .insufficientMemory ↔ h.bufferLen < (stripBlankLine (headerBlock m h)).length + f.length + v.length + 6) ∧
      (st = .insufficientMemory → h' = h ∧ m' = m) := by
  obtain ⟨st, h', m', e, _, _, _, _, hi, he, _⟩ := addHeader_full pre
  exact ⟨st, h', m', e, hi, he⟩

/-- A used request object: "GET / HTTP/1.1", one Host line, in a 64-byte buffer. -/
def exBlock : Bytes := ascii "GET / HTTP/1.1\r\nHost: a\r\n\r\n"
def exMem2 : Mem := fun _ => exBlock ++ List.replicate 37 0
def exHdr2 : ReqHeaders := ⟨some 0, 64, 27⟩

/-- AddPre is satisfiable by an ordinary call. -/
theorem exAddPre : AddPre exCfg exMem2 exHdr2 0 (ascii "Accept") (ascii "*/*") :=
  ⟨⟨rfl, by decide⟩, by decide, by decide, by decide, by decide⟩

example : ∃ h' m', HTTPClient_AddHeader exCfg exMem2 (some exHdr2) (some (ascii "Accept")) (some (ascii "*/*"))
      = .ok (.success, some h', m') ∧
    headerBlock m' h' = ascii "GET / HTTP/1.1\r\nHost: a\r\nAccept: */*\r\n\r\n" := by
  obtain ⟨st, h', m', e, _, hs⟩ := C07_no_injection exAddPre
  have := ((hs (by decide)).2).mpr ⟨by decide, by decide⟩
  subst this
  refine ⟨h', m', e, ?_⟩
  rw [(C04_addHeader_appends exAddPre e).1]
  decide

/-! ## C05, C06, C10, C12: histories -/

/-- **C05.** After any history of initialisations and additions on one object, with any results, the header block is exactly
the serialisation of the abstract request (request line + accepted headers in order) whenever that is defined. -/
theorem C05_history {cfg : Cfg} (hua : cfg.userAgent ≠ []) {m : Mem} {h : ReqHeaders} {b : Nat} {ops : List BuildOp}
    (hbuf : HasBuf m h b) (hops : ∀ op ∈ ops, OpOk cfg h.bufferLen op) :
    ∃ sts h' m', runBuildOps cfg m h ops = .ok (sts, h', m') ∧ sts.length = ops.length ∧
      ∀ line hs, absRun cfg.userAgent none (ops.zip sts) = some (line, hs) →
        headerBlock m' h' = requestBlock line hs ∧ h'.headersLen = (requestBlock line hs).length := by
  obtain ⟨sts, h', m', e, hlen, _, _, _, _, habs⟩ := runBuildOps_spec hua ops m h b none hbuf.1 hbuf.2 hops
  refine ⟨sts, h', m', e, hlen, fun line hs hr => ?_⟩
  have := (habs (by simp) line hs hr).1
  exact ⟨this.eq, this.len⟩

/-- **C06.** ...and reading that block back by the HTTP line grammar gives exactly the request line and the accepted
(field, value) pairs in order, if method and path contain no CR or LF. -/
theorem C06_readback {cfg : Cfg} (hua : cfg.userAgent ≠ []) {m : Mem} {h : ReqHeaders} {b : Nat} {ops : List BuildOp}
    (hbuf : HasBuf m h b) (hops : ∀ op ∈ ops, OpOk cfg h.bufferLen op) :
    ∃ sts h' m', runBuildOps cfg m h ops = .ok (sts, h', m') ∧
      ∀ me path hs, absRun cfg.userAgent none (ops.zip sts) = some (requestLine me path, hs) →
        CleanValue me → CleanValue path →
        readRequest (headerBlock m' h') = some (me ++ ascii " " ++ path ++ ascii " HTTP/1.1", hs, []) := by
  obtain ⟨sts, h', m', e, hlen, _, _, _, _, habs⟩ := runBuildOps_spec hua ops m h b none hbuf.1 hbuf.2 hops
  refine ⟨sts, h', m', e, fun me path hs hr hm hp => ?_⟩
  obtain ⟨hB, _, hcl⟩ := habs (by simp) _ hs hr
  have := readRequest_block me path hs [] hm hp hcl
  rw [List.append_nil] at this
  rw [hB.eq, this]
  have e1 : ascii " " = [32] := by decide
  have e2 : ascii " HTTP/1.1" = [32] ++ ascii "HTTP/1.1" := by decide
  rw [e1, e2]; simp [List.append_assoc]

/-- A history with an accepted, a rejected (empty value) and a Range addition meets the hypotheses and has a defined abstract
request. -/
def exOps : List BuildOp :=
  [.init (some exInfo), .addHeader (some (ascii "A")) (some (ascii "1")), .addHeader (some (ascii "B")) (some []), .addRange 0 99]

example : ∃ sts h' m', runBuildOps exCfg exMem exHdr exOps = .ok (sts, h', m') := by
  obtain ⟨sts, h', m', e, _⟩ := C05_history (cfg := exCfg) (by decide) (m := exMem) (h := exHdr) (b := 0) (ops := exOps)
    exHasBuf (by
      intro op hop
      simp only [exOps, List.mem_cons, List.not_mem_nil, or_false] at hop
      rcases hop with rfl | rfl | rfl | rfl
      · exact ⟨by decide, trivial⟩
      · exact ⟨by decide, trivial⟩
      · exact ⟨by decide, trivial⟩
      · exact ⟨by decide, by decide, by decide⟩)
  exact ⟨sts, h', m', e⟩

example : absRun exCfg.userAgent none (exOps.zip [.success, .success, .invalidParameter, .success])
    = some (requestLine (ascii "GET") (ascii "/"),
        [(ascii "User-Agent", ascii "my-platform-name"), (ascii "Host", ascii "example.com"),
         (ascii "Connection", ascii "keep-alive"), (ascii "A", ascii "1"), (ascii "Range", ascii "bytes=0-99")]) := by
  decide

/-- **C10.** No request-building call, with any arguments, on an object with any headersLen, reads or writes outside the first
bufferLen bytes of the buffer or trips an assertion (a value is returned, not a fault), provided sizes are countable in size_t;
all other memory is unchanged. -/
theorem C10_memory_safe {cfg : Cfg} (hua : cfg.userAgent ≠ []) {m : Mem} {h : ReqHeaders} {b : Nat} {op : BuildOp}
    (hbuf : HasBuf m h b) (hop : OpOk cfg h.bufferLen op) :
    ∃ st h' m', runBuildOp cfg m h op = .ok (st, some h', m') ∧ h'.pBuffer = h.pBuffer ∧ h'.bufferLen = h.bufferLen ∧
      FrameBuf m m' b h.bufferLen := by
  obtain ⟨st, h', m', e, hb, hbl, _, hfr, _⟩ := runBuildOp_spec (op := op) hua hbuf.1 hbuf.2 hop
  exact ⟨st, h', m', e, hb.trans hbuf.1.symm, hbl, hfr⟩

/-- C10 for objects without a buffer, and for a NULL object: HTTPInvalidParameter, nothing changes. -/
theorem C10_null_safe {cfg : Cfg} {m : Mem} {h : ReqHeaders} (hnull : h.pBuffer = none) (op : BuildOp) :
    runBuildOp cfg m h op = .ok (.invalidParameter, some h, m) ∧
    (∀ info, HTTPClient_InitializeRequestHeaders cfg m none info = .ok (.invalidParameter, none, m)) ∧
    (∀ f v, HTTPClient_AddHeader cfg m none f v = .ok (.invalidParameter, none, m)) ∧
    (∀ s e, HTTPClient_AddRangeHeader cfg m none s e = .ok (.invalidParameter, none, m)) := by
  refine ⟨?_, fun _ => rfl, fun _ _ => rfl, fun _ _ => rfl⟩
  cases op <;>
    simp [runBuildOp, HTTPClient_InitializeRequestHeaders, HTTPClient_AddHeader, HTTPClient_AddRangeHeader, hnull]

/-- **C12.** headersLen ≤ bufferLen is preserved by every history of calls with every result; the buffer pointer and bufferLen never
change, and memory outside the buffer never changes. -/
theorem C12_headersLen_bounded {cfg : Cfg} (hua : cfg.userAgent ≠ []) {m : Mem} {h : ReqHeaders} {b : Nat} {ops : List BuildOp}
    (hbuf : HasBuf m h b) (hle : h.headersLen ≤ h.bufferLen) (hops : ∀ op ∈ ops, OpOk cfg h.bufferLen op) :
    ∃ sts h' m', runBuildOps cfg m h ops = .ok (sts, h', m') ∧ h'.headersLen ≤ h'.bufferLen ∧
      h'.bufferLen = h.bufferLen ∧ h'.pBuffer = h.pBuffer ∧ FrameBuf m m' b h.bufferLen := by
  obtain ⟨sts, h', m', e, _, hb, hbl, hle', hfr, _⟩ := runBuildOps_spec hua ops m h b none hbuf.1 hbuf.2 hops
  exact ⟨sts, h', m', e, hle' hle, hbl, hb.trans hbuf.1.symm, hfr⟩

/-! ## C08: injection through method and path -/

/-- **C08 is false of the code.** A path containing CRLF (method and path are copied unchecked) puts a header of the
attacker's choice into a successfully initialised request. -/
theorem C08_refuted : ∃ (path : Bytes) (h' : ReqHeaders) (m' : Mem),
    HTTPClient_InitializeRequestHeaders exCfg exMem (some exHdr) (some ⟨some (ascii "GET"), some path, some (ascii "a"), 2⟩)
      = .ok (.success, some h', m') ∧
    readRequest (headerBlock m' h') = some (ascii "GET / HTTP/1.1",
      [(ascii "Evil", ascii "1"), (ascii "X", ascii "y HTTP/1.1"), (ascii "Host", ascii "a")], []) := by
  have hb : HasBuf exMem exHdr 0 := exHasBuf
  obtain ⟨st, h', m', e, hiff, _⟩ := C02_init_success_iff (cfg := exCfg) (me := ascii "GET") (ho := ascii "a")
    (path := some (ascii "/ HTTP/1.1\r\nEvil: 1\r\nX: y")) (flags := 2) (by decide) hb (by decide) (by decide) (by decide)
  have hst : st = .success := hiff.mpr ⟨by decide, by decide, by decide⟩
  subst hst
  refine ⟨_, h', m', e, ?_⟩
  rw [(C01_init_layout (by decide) hb (by decide) e).1]
  decide

/-- **C08, partial.** With method and path free of CR and LF (missing: the code does not check this), a successfully initialised
request reads back as exactly the documented lines, whatever the host. -/
theorem C08_no_injection_partial {cfg : Cfg} {m m' : Mem} {h h' : ReqHeaders} {b : Nat} {me ho : Bytes} {path : Option Bytes}
    {flags : UInt32} (hua : cfg.userAgent ≠ []) (hbuf : HasBuf m h b)
    (hsize : h.bufferLen + (requestBlock (requestLine me (effectivePath path))
      (documentedHeaders cfg.userAgent ho flags.toNat)).length < 2 ^ cfg.sizeBits)
    (hm : CleanValue me) (hp : CleanValue (effectivePath path))
    (hrun : HTTPClient_InitializeRequestHeaders cfg m (some h) (some ⟨some me, path, some ho, flags⟩)
      = .ok (.success, some h', m')) :
    readRequest (headerBlock m' h') = some (me ++ ascii " " ++ effectivePath path ++ ascii " HTTP/1.1",
      documentedHeaders cfg.userAgent ho flags.toNat, []) := by
  obtain ⟨sts, h1, m1, e, habs⟩ := C06_readback hua (ops := [.init (some ⟨some me, path, some ho, flags⟩)]) hbuf (by
    intro op hop
    simp only [List.mem_singleton] at hop; subst hop
    exact ⟨hsize, trivial⟩)
  simp only [runBuildOps, runBuildOp, hrun, Run.ok_bind, Run.ok.injEq, Prod.mk.injEq] at e
  obtain ⟨rfl, rfl, rfl⟩ := e
  exact habs me (effectivePath path) _ rfl hm hp

/-- **C08, exactly when.** A successfully initialised request reads back as exactly the documented lines if, and only if, neither the method nor the path
contains a CR LF pair: every such pair lets the caller's data decide where the lines end. -/
theorem C08_injection_iff {cfg : Cfg} {m m' : Mem} {h h' : ReqHeaders} {b : Nat} {me ho : Bytes} {path : Option Bytes}
    {flags : UInt32} (hua : cfg.userAgent ≠ []) (hbuf : HasBuf m h b)
    (hsize : h.bufferLen + (requestBlock (requestLine me (effectivePath path))
      (documentedHeaders cfg.userAgent ho flags.toNat)).length < 2 ^ cfg.sizeBits)
    (hrun : HTTPClient_InitializeRequestHeaders cfg m (some h) (some ⟨some me, path, some ho, flags⟩)
      = .ok (.success, some h', m')) :
    readRequest (headerBlock m' h') = some (me ++ ascii " " ++ effectivePath path ++ ascii " HTTP/1.1",
      documentedHeaders cfg.userAgent ho flags.toNat, []) ↔
    ¬ crlf <:+: me ∧ ¬ crlf <:+: effectivePath path := by
  obtain ⟨sts, h1, m1, e, _, _, _, _, _, habs⟩ := runBuildOps_spec hua [.init (some ⟨some me, path, some ho, flags⟩)] m h b none hbuf.1 hbuf.2 (by
    intro op hop
    simp only [List.mem_singleton] at hop; subst hop
    exact ⟨hsize, trivial⟩)
  simp only [runBuildOps, runBuildOp, hrun, Run.ok_bind, Run.ok.injEq, Prod.mk.injEq] at e
  obtain ⟨rfl, rfl, rfl⟩ := e
  obtain ⟨hB, _, hcl⟩ := habs (by simp) (requestLine me (effectivePath path)) (documentedHeaders cfg.userAgent ho flags.toNat) rfl
  rw [hB.eq]
  generalize effectivePath path = p
  generalize documentedHeaders cfg.userAgent ho flags.toNat = hs at hcl
  have e1 : me ++ ascii " " ++ p ++ ascii " HTTP/1.1" = me ++ 32 :: (p ++ 32 :: ascii "HTTP/1.1") := by
    rw [show ascii " " = [32] by decide, show ascii " HTTP/1.1" = [32] ++ ascii "HTTP/1.1" by decide]; simp [List.append_assoc]
  have e2 : requestBlock (requestLine me p) hs = (me ++ 32 :: (p ++ 32 :: ascii "HTTP/1.1")) ++ crlf ++ (headerLines hs ++ crlf ++ []) := by
    simp [requestBlock, requestLine, List.append_assoc]
  have hsplit : crlf <:+: me ++ 32 :: (p ++ 32 :: ascii "HTTP/1.1") ↔ crlf <:+: me ∨ crlf <:+: p := by
    rw [crlf_infix_split (by decide) (by decide), crlf_infix_split (by decide) (by decide)]
    have : ¬ crlf <:+: ascii "HTTP/1.1" := by
      intro h
      have := h.subset (show (13 : UInt8) ∈ crlf by decide)
      revert this; decide
    simp [this]
  rw [e1, e2, ← not_or, ← hsplit, ← takeLine_iff _ (headerLines hs ++ crlf ++ [])]
  generalize me ++ 32 :: (p ++ 32 :: ascii "HTTP/1.1") = L
  have hread := readHeaders_block hs [] ((headerLines hs ++ crlf ++ []).length + 1) (by
    have := headerLines_length hs
    simp only [List.length_append, len_crlf]; omega) hcl
  constructor
  · intro h
    unfold readRequest at h
    cases ht : takeLine (L ++ crlf ++ (headerLines hs ++ crlf ++ [])) with
    | none => rw [ht] at h; cases h
    | some r =>
      rw [ht] at h
      simp only [Option.bind_eq_bind, Option.bind_some] at h
      cases hr : readHeaders (r.2.length + 1) r.2 with
      | none => rw [hr] at h; cases h
      | some q =>
        rw [hr] at h
        simp only [Option.bind_some, Option.some.injEq, Prod.mk.injEq] at h
        -- the first line has the full length, so it ends where it should
        have key : ∀ (bs : Bytes) (l r : Bytes), takeLine bs = some (l, r) → bs = l ++ crlf ++ r := by
          intro bs
          induction bs with
          | nil => intro l r h; cases h
          | cons c bs ih =>
            intro l r h
            by_cases hc : c = 13 ∧ bs.head? = some 10
            · simp only [takeLine, hc, and_self, if_true, Option.some.injEq, Prod.mk.injEq] at h
              obtain ⟨rfl, rfl⟩ := h
              cases bs with
              | nil => simp at hc
              | cons d bs =>
                obtain ⟨rfl, h2⟩ := hc
                simp only [List.head?_cons, Option.some.injEq] at h2
                subst h2; rfl
            · simp only [takeLine, if_neg hc] at h
              cases he : takeLine bs with
              | none => rw [he] at h; cases h
              | some x =>
                rw [he] at h
                simp only [Option.map_some, Option.some.injEq, Prod.mk.injEq] at h
                obtain ⟨rfl, rfl⟩ := h
                rw [ih x.1 x.2 (by rw [he])]; rfl
        obtain ⟨l, r⟩ := r
        have hk := key _ _ _ ht
        dsimp only at h
        rw [h.1] at hk ⊢
        have hk' := List.append_cancel_left hk
        rw [hk']
  · intro h
    unfold readRequest
    rw [h]
    simp only [Option.bind_eq_bind, Option.bind_some]
    rw [hread]
    rfl

/-- A path with a CR LF pair (that of `C08_refuted`), and one without but with a bare LF. -/
example : crlf <:+: ascii "/ HTTP/1.1\r\nEvil: 1\r\nX: y" ∧ ¬ crlf <:+: ascii "/a\nb" :=
  ⟨⟨ascii "/ HTTP/1.1", ascii "Evil: 1\r\nX: y", by decide +kernel⟩,
    fun h => absurd (h.subset (show (13 : UInt8) ∈ crlf by decide)) (by decide +kernel)⟩

/-! ## C09: failed additions -/

/-- **C09 is false of the code.** A rejected AddHeader (LF in the field) has already overwritten the final CRLF of the header
block: the request that was ready to send no longer ends in a blank line. -/
theorem C09_refuted : ∃ h' m',
    HTTPClient_AddHeader exCfg exMem2 (some exHdr2) (some (ascii "Xy\n")) (some (ascii "v"))
      = .ok (.invalidCharacter, some h', m') ∧
    headerBlock exMem2 exHdr2 = ascii "GET / HTTP/1.1\r\nHost: a\r\n\r\n" ∧
    headerBlock m' h' = ascii "GET / HTTP/1.1\r\nHost: a\r\nXy" := by
  refine ⟨_, _, rfl, by decide, by decide⟩

/-- **C09, partial.** A failed AddHeader never changes headersLen nor any byte before the final blank line; unless the failure is
HTTPSecurityAlertInvalidCharacter it changes nothing at all (missing: the two bytes of the final blank line in that case). -/
theorem C09_failed_add_partial {cfg : Cfg} {m m' : Mem} {h : ReqHeaders} {oh : Option ReqHeaders} {b : Nat} {f v : Option Bytes}
    {st : Status} (hbuf : HasBuf m h b) (hop : OpOk cfg h.bufferLen (.addHeader f v))
    (hrun : HTTPClient_AddHeader cfg m (some h) f v = .ok (st, oh, m')) (hfail : st ≠ .success) :
    oh = some h ∧
    (stripBlankLine (headerBlock m h)) <+: headerBlock m' h ∧
    (st ≠ .invalidCharacter → m' = m) := by
  have hsp : stripBlankLine (headerBlock m h) <+: headerBlock m h := by
    unfold stripBlankLine; split
    · exact List.take_prefix _ _
    · exact List.prefix_rfl
  have same : oh = some h → m' = m → oh = some h ∧ (stripBlankLine (headerBlock m h)) <+: headerBlock m' h ∧
      (st ≠ .invalidCharacter → m' = m) := by
    rintro rfl rfl; exact ⟨rfl, hsp, fun _ => rfl⟩
  rcases f with _ | f
  · simp [HTTPClient_AddHeader, hbuf.1] at hrun; exact same hrun.2.1.symm hrun.2.2.symm
  rcases v with _ | v
  · simp [HTTPClient_AddHeader, hbuf.1] at hrun; exact same hrun.2.1.symm hrun.2.2.symm
  by_cases hf : f = []
  · simp [HTTPClient_AddHeader, hbuf.1, hf] at hrun; exact same hrun.2.1.symm hrun.2.2.symm
  by_cases hv : v = []
  · simp [HTTPClient_AddHeader, hbuf.1, hf, hv] at hrun; exact same hrun.2.1.symm hrun.2.2.symm
  by_cases hle : h.headersLen ≤ h.bufferLen
  · have hs := hop.1
    simp only [opSize] at hs
    obtain ⟨st1, h1, m1, e, _, _, _, hfr, _, hins, _, _, hinv, _, hcase⟩ :=
      addHeader_full (cfg := cfg) (m := m) (h := h) (b := b) (f := f) (v := v) ⟨hbuf, hle, hf, hv, by omega⟩
    rw [hrun] at e
    simp only [Run.ok.injEq, Prod.mk.injEq] at e
    obtain ⟨rfl, rfl, rfl⟩ := e
    rcases hcase with h0 | h0 | h0
    · exact absurd h0 hfail
    · obtain ⟨rfl, rfl⟩ := hins h0; exact same rfl rfl
    · obtain ⟨rfl, htake⟩ := hinv h0
      refine ⟨rfl, ?_, fun hne => absurd h0 hne⟩
      have hl : (stripBlankLine (headerBlock m h1)).length ≤ h1.headersLen := by
        have := hsp.length_le
        simp only [headerBlock, hbuf.1, List.length_take] at this ⊢; omega
      have e1 : headerBlock m' h1 = (m' b).take h1.headersLen := by simp [headerBlock, hbuf.1]
      rw [e1]
      exact List.prefix_take_iff.mpr ⟨by rw [← htake]; exact List.take_prefix _ _, by omega⟩
  · simp [HTTPClient_AddHeader, hbuf.1, hf, hv, Nat.lt_of_not_le hle] at hrun
    exact same hrun.2.1.symm hrun.2.2.symm

/-- **C09 for AddRangeHeader** holds in full: a failed call changes nothing. -/
theorem C09_failed_addRange {cfg : Cfg} {m m' : Mem} {h : ReqHeaders} {oh : Option ReqHeaders} {b : Nat} {s e : Int}
    {st : Status} (hbuf : HasBuf m h b) (hop : OpOk cfg h.bufferLen (.addRange s e))
    (hrun : HTTPClient_AddRangeHeader cfg m (some h) s e = .ok (st, oh, m')) (hfail : st ≠ .success) :
    oh = some h ∧ m' = m := by
  obtain ⟨hsz, hs32, he32⟩ := hop
  by_cases hle : h.headersLen ≤ h.bufferLen
  · rw [addRange_api hs32 he32 hbuf.1 hle] at hrun
    by_cases hv : ValidRange s e
    · rw [if_pos hv] at hrun
      obtain ⟨hrl, hrne⟩ := rangeText_length hs32 he32 hv
      have hr5 : RANGE_FIELD.length = 5 := by decide
      have hk : (stripBlankLine (headerBlock m h)).length ≤ h.headersLen := by
        have h1 := strip_length_le (headerBlock m h)
        have h3 : (headerBlock m h).length ≤ h.headersLen := by
          simp only [headerBlock, hbuf.1, List.length_take]; omega
        omega
      simp only [opSize] at hsz
      obtain ⟨st1, h1, m1, e1, _, _, _, _, _, hins, _, hic, _, _, hcase⟩ := addHeader_block (cfg := cfg) (m := m) (h := h) (b := b)
        (f := RANGE_FIELD) (v := rangeText (requestedRange s e)) hbuf.1 (by decide) hrne hle hbuf.2 (by omega)
      rw [e1] at hrun
      simp only [Run.ok_bind, Run.ok.injEq, Prod.mk.injEq] at hrun
      obtain ⟨rfl, rfl, rfl⟩ := hrun
      rcases hcase with h0 | h0 | h0
      · exact absurd h0 hfail
      · obtain ⟨rfl, rfl⟩ := hins h0; exact ⟨rfl, rfl⟩
      · exact absurd ⟨by decide, clean_rangeText _⟩ (hic.mp h0).2
    · rw [if_neg hv] at hrun
      simp only [Run.ok.injEq, Prod.mk.injEq] at hrun
      exact ⟨hrun.2.1.symm, hrun.2.2.symm⟩
  · simp [HTTPClient_AddRangeHeader, hbuf.1, Nat.lt_of_not_le hle] at hrun
    exact ⟨hrun.2.1.symm, hrun.2.2.symm⟩

/-! ## C11: sizes near SIZE_MAX -/

/-- **C11 is false of the code.** For every width of size_t (of at least 5 bits) there are field and value lengths whose sum wraps to 0, so
that the space check passes and the copy runs past the buffer. -/
theorem C11_refuted (w : Nat) (hw : 5 ≤ w) (ua : Bytes) (ts tr : UInt32) :
    ∃ (m : Mem) (h : ReqHeaders) (f v : Bytes), HasBuf m h 0 ∧ h.headersLen ≤ h.bufferLen ∧ f ≠ [] ∧ v ≠ [] ∧
      f.length < 2 ^ w ∧ v.length < 2 ^ w ∧ h.bufferLen < 2 ^ w ∧
      HTTPClient_AddHeader ⟨w, ua, ts, tr⟩ m (some h) (some f) (some v) = .fault .oob := by
  obtain ⟨k, rfl⟩ : ∃ k, w = k + 1 := ⟨w - 1, by omega⟩
  have hk16 : 16 ≤ 2 ^ k := by
    have : 2 ^ 4 ≤ 2 ^ k := Nat.pow_le_pow_right (by decide) (by omega)
    simpa using this
  have hpow : 2 ^ (k + 1) = 2 ^ k * 2 := Nat.pow_succ ..
  refine ⟨fun _ => [], ⟨some 0, 0, 0⟩, List.replicate (2 ^ k) 65, List.replicate (2 ^ k - 6) 65, ⟨rfl, by simp⟩, by simp,
    ?_, ?_, by simp; omega, by simp; omega, by simp; omega, ?_⟩
  · intro h0; have := congrArg List.length h0; simp at this
  · intro h0; have := congrArg List.length h0; simp at this; omega
  · generalize hf : List.replicate (2 ^ k) (65 : UInt8) = f
    generalize hv : List.replicate (2 ^ k - 6) (65 : UInt8) = v
    have hfl : f.length = 2 ^ k := by rw [← hf]; simp
    have hvl : v.length = 2 ^ k - 6 := by rw [← hv]; simp
    have hfn : f ≠ [] := by intro h0; rw [h0] at hfl; simp at hfl; omega
    have hvn : v ≠ [] := by intro h0; rw [h0] at hvl; simp at hvl; omega
    rw [addHeader_api rfl hfn hvn (by simp)]
    unfold addHeader
    have a1 : f.length ≠ 0 := by omega
    have a2 : v.length ≠ 0 := by omega
    simp only [decide_eq_true a1, decide_eq_true a2, cAssert_true, Run.ok_bind, len_he, len_fs, len_ls,
      show ¬ 4 ≤ 0 by decide, if_false]
    have hz : szAdd ⟨k + 1, ua, ts, tr⟩ (szAdd ⟨k + 1, ua, ts, tr⟩ (szAdd ⟨k + 1, ua, ts, tr⟩
        (szAdd ⟨k + 1, ua, ts, tr⟩ f.length 2) v.length) 2) 2 = 0 := by
      simp only [szAdd, hfl, hvl, hpow]
      generalize 2 ^ k = K at hk16
      rw [Nat.mod_eq_of_lt (show K + 2 < K * 2 by omega), show K + 2 + (K - 6) = K * 2 - 4 by omega,
        Nat.mod_eq_of_lt (show K * 2 - 4 < K * 2 by omega), show K * 2 - 4 + 2 = K * 2 - 2 by omega,
        Nat.mod_eq_of_lt (show K * 2 - 2 < K * 2 by omega), show K * 2 - 2 + 2 = K * 2 by omega, Nat.mod_self]
    rw [hz]
    have hz2 : szAdd ⟨k + 1, ua, ts, tr⟩ 0 0 = 0 := by simp [szAdd]
    rw [hz2, if_pos (Nat.le_refl _), strncpy_eq _ _ _ _ (by simp)]
    have hall : f.all (okByte true) = true := by
      rw [← hf, List.all_eq_true]; intro c hc
      have := List.eq_of_mem_replicate hc; subst this; decide
    rw [takeWhile_all hall]
    have : memWrite ([] : Bytes) 0 f = .fault .oob := by
      simp [memWrite, hfn]
    rw [this]; rfl

/-! ## C14, C15, C16: ranges and numbers -/

/-- **C15.** For a valid request object with 32-bit range arguments, HTTPInvalidParameter is returned exactly when the arguments do not
denote a range. -/
theorem C15_range_accepted_iff {cfg : Cfg} {m : Mem} {h : ReqHeaders} {b : Nat} {s e : Int} (hbuf : HasBuf m h b)
    (hle : h.headersLen ≤ h.bufferLen) (hop : OpOk cfg h.bufferLen (.addRange s e)) :
    ∃ st h' m', HTTPClient_AddRangeHeader cfg m (some h) s e = .ok (st, some h', m') ∧
      (st = .invalidParameter ↔
        e < -1 ∨ (s < 0 ∧ e ≠ -1) ∨ (e ≠ -1 ∧ s > e) ∨ s = -2147483648) ∧
      (st = .success ∨ st = .insufficientMemory ∨ st = .invalidParameter) ∧
      (st = .insufficientMemory ↔ ValidRange s e ∧
        h.bufferLen < (stripBlankLine (headerBlock m h)).length + 5 + (rangeText (requestedRange s e)).length + 6) := by
  obtain ⟨hsz, hs32, he32⟩ := hop
  rw [addRange_api hs32 he32 hbuf.1 hle]
  have hvi : ¬ ValidRange s e ↔ (e < -1 ∨ (s < 0 ∧ e ≠ -1) ∨ (e ≠ -1 ∧ s > e) ∨ s = -2147483648) := by
    unfold ValidRange; omega
  by_cases hv : ValidRange s e
  · rw [if_pos hv]
    obtain ⟨hrl, hrne⟩ := rangeText_length hs32 he32 hv
    have hr5 : RANGE_FIELD.length = 5 := by decide
    have hk : (stripBlankLine (headerBlock m h)).length ≤ h.headersLen := by
      have h1 := strip_length_le (headerBlock m h)
      have h3 : (headerBlock m h).length ≤ h.headersLen := by
        simp only [headerBlock, hbuf.1, List.length_take]; omega
      omega
    simp only [opSize] at hsz
    obtain ⟨st1, h1, m1, e1, _, _, _, _, hi, hins, _, hic, _, _, hcase⟩ := addHeader_block (cfg := cfg) (m := m) (h := h) (b := b)
      (f := RANGE_FIELD) (v := rangeText (requestedRange s e)) hbuf.1 (by decide) hrne hle hbuf.2 (by omega)
    refine ⟨st1, h1, m1, by rw [e1]; rfl, ?_, ?_, ?_⟩
    · rw [← hvi]
      rcases hcase with h0 | h0 | h0 <;> simp [h0, hv]
    · rcases hcase with h0 | h0 | h0
      · simp [h0]
      · simp [h0]
      · exact absurd ⟨by decide, clean_rangeText _⟩ (hic.mp h0).2
    · rw [hi, hr5]; simp [hv]
  · rw [if_neg hv]
    exact ⟨.invalidParameter, h, m, rfl, by simp [← hvi, hv], by simp, by simp [hv]⟩

/-- **C14.** A successful AddRangeHeader appends exactly the line `Range: <text>`, and reading the text by the byte-range grammar
gives exactly the requested range. -/
theorem C14_range_text {cfg : Cfg} {m m' : Mem} {h h' : ReqHeaders} {b : Nat} {s e : Int} (hbuf : HasBuf m h b)
    (hop : OpOk cfg h.bufferLen (.addRange s e))
    (hrun : HTTPClient_AddRangeHeader cfg m (some h) s e = .ok (.success, some h', m')) :
    ∃ text, headerBlock m' h' = stripBlankLine (headerBlock m h) ++ headerLine (ascii "Range") text ++ crlf ∧
      text = rangeText (requestedRange s e) ∧ readRange text = some (requestedRange s e) := by
  obtain ⟨hsz, hs32, he32⟩ := hop
  have hle : h.headersLen ≤ h.bufferLen := by
    apply Classical.byContradiction; intro hn
    simp [HTTPClient_AddRangeHeader, hbuf.1, Nat.lt_of_not_le hn] at hrun
  rw [addRange_api hs32 he32 hbuf.1 hle] at hrun
  by_cases hv : ValidRange s e
  · rw [if_pos hv] at hrun
    obtain ⟨hrl, hrne⟩ := rangeText_length hs32 he32 hv
    have hr5 : RANGE_FIELD.length = 5 := by decide
    have hk : (stripBlankLine (headerBlock m h)).length ≤ h.headersLen := by
      have h1 := strip_length_le (headerBlock m h)
      have h3 : (headerBlock m h).length ≤ h.headersLen := by
        simp only [headerBlock, hbuf.1, List.length_take]; omega
      omega
    simp only [opSize] at hsz
    obtain ⟨st1, h1, m1, e1, _, _, _, _, _, _, _, _, _, hB, _⟩ := addHeader_block (cfg := cfg) (m := m) (h := h) (b := b)
      (f := RANGE_FIELD) (v := rangeText (requestedRange s e)) hbuf.1 (by decide) hrne hle hbuf.2 (by omega)
    rw [e1] at hrun
    simp only [Run.ok_bind, Run.ok.injEq, Prod.mk.injEq, Option.some.injEq] at hrun
    obtain ⟨rfl, rfl, rfl⟩ := hrun
    exact ⟨_, (hB rfl).1, rfl, readRange_rangeText _⟩
  · rw [if_neg hv] at hrun
    simp at hrun

/-- The hypotheses of C14/C15 are met by the three documented kinds of range. -/
example : OpOk exCfg 64 (.addRange 0 1023) ∧ OpOk exCfg 64 (.addRange (-512) (-1)) ∧ OpOk exCfg 64 (.addRange 256 (-1)) ∧
    rangeText (requestedRange 0 1023) = ascii "bytes=0-1023" ∧
    rangeText (requestedRange (-512) (-1)) = ascii "bytes=-512" ∧
    rangeText (requestedRange 256 (-1)) = ascii "bytes=256-" :=
  ⟨⟨by decide, by decide, by decide⟩, ⟨by decide, by decide, by decide⟩, ⟨by decide, by decide, by decide⟩, by decide, by decide, by decide⟩

/-- **C16.** Converting any 32-bit integer other than INT32_MIN, with 11 bytes of room for a negative and 10 for a non-negative one,
writes exactly its minimal decimal text (with a leading '-' when negative), touches no other byte, and does not overflow. -/
theorem C16_decimal_exact {v : Int} {buf : Bytes} {pos bufferLength : Nat} (h32 : -2147483648 < v ∧ v ≤ 2147483647)
    (hlen : 10 ≤ bufferLength) (hroom : pos + (if v < 0 then 11 else 10) ≤ buf.length) :
    ∃ buf' n, convertInt32ToAscii v buf pos bufferLength = .ok (buf', n) ∧
      (buf'.drop pos).take n = (if v < 0 then ascii "-" else []) ++ decimal v.natAbs ∧
      n = ((if v < 0 then ascii "-" else []) ++ decimal v.natAbs).length ∧
      readDecimal (decimal v.natAbs) = some v.natAbs ∧
      buf'.length = buf.length ∧ buf'.take pos = buf.take pos ∧ buf'.drop (pos + n) = buf.drop (pos + n) := by
  have hd : (decimal v.natAbs).length ≤ 10 := decimal_le10 (by omega)
  have htext : intText v = (if v < 0 then ascii "-" else []) ++ decimal v.natAbs := by
    unfold intText; split <;> rfl
  have hlt : pos + (intText v).length ≤ buf.length := by
    rw [htext, List.length_append]
    split at hroom
    · rename_i hn; rw [if_pos hn]; have : (ascii "-").length = 1 := by decide
      omega
    · rename_i hn; rw [if_neg hn]; simp; omega
  rw [convert_eq v buf pos bufferLength hlen (by simp only [INT32_MIN]; omega), memWrite_ok hlt]
  refine ⟨_, _, rfl, ?_, by rw [htext], readDecimal_decimal _, splice_length hlt, take_splice_le (by omega) (Nat.le_refl _), drop_splice hlt (Nat.le_refl _)⟩
  rw [← htext]
  unfold splice
  rw [List.append_assoc, List.drop_left' (by simp; omega), List.take_left' rfl]

/-- **C16, range values**: for arguments accepted by AddRangeHeader the scratch buffer is never overrun. -/
theorem C16_range_scratch {s e : Int} (hs : -2147483648 ≤ s ∧ s ≤ 2147483647) (he : -2147483648 ≤ e ∧ e ≤ 2147483647)
    (hv : ValidRange s e) : rangeValue s e = .ok (rangeText (requestedRange s e)) := rangeValue_eq hs he hv

/-- **C16, Content-Length**: for every body length from 1 to INT32_MAX the value written is its decimal text, without fault. -/
theorem C16_contentLength_scratch {cfg : Cfg} {m : Mem} {h : ReqHeaders} {n : Nat} (h0 : 0 < n) (hn : n ≤ 2147483647) :
    addContentLengthHeader cfg m h n = addHeader cfg m h (some (ascii "Content-Length")) (some (decimal n)) :=
  contentLength_eq h0 hn

example : ∃ buf', convertInt32ToAscii (-2147483647) (List.replicate 11 0) 0 11 = .ok (buf', 11) ∧
    buf' = ascii "-2147483647" := by
  refine ⟨_, by rw [convert_eq _ _ _ _ (by decide) (by decide), memWrite_ok (by decide)]; rfl, by decide⟩

/-! ## C62: parameter checks -/

/-- **C62, HTTPClient_InitializeRequestHeaders.** With parameters that violate the documented conditions, HTTPInvalidParameter, and nothing changes – no
object, no memory, whatever they hold. -/
theorem C62_init_invalid {cfg : Cfg} {m : Mem} {rh : Option ReqHeaders} {info : Option ReqInfo} (h : ¬ InitParamsOk rh info) :
    HTTPClient_InitializeRequestHeaders cfg m rh info = .ok (.invalidParameter, rh, m) := by
  cases rh with
  | none => rfl
  | some r =>
    obtain ⟨pb, bl, hl⟩ := r
    cases pb with
    | none => rfl
    | some b =>
      cases info with
      | none => rfl
      | some i =>
        obtain ⟨me, pa, ho, fl⟩ := i
        cases me with
        | none => rfl
        | some me =>
          cases ho with
          | none => rfl
          | some ho =>
            by_cases h1 : me = []
            · subst h1; rfl
            · by_cases h2 : ho = []
              · subst h2
                simp [HTTPClient_InitializeRequestHeaders, h1]
              · exact absurd ⟨⟨_, _, rfl, rfl⟩, ⟨_, _, _, rfl, rfl, h1, rfl, h2⟩⟩ h

/-- **C62, HTTPClient_InitializeRequestHeaders, the converse**: with parameters as documented, a buffer as long as claimed and sizes countable in size_t,
the status is not HTTPInvalidParameter. -/
theorem C62_init_valid {cfg : Cfg} {m : Mem} {h : ReqHeaders} {i : ReqInfo} {b : Nat} (hua : cfg.userAgent ≠ [])
    (hok : InitParamsOk (some h) (some i)) (hbuf : HasBuf m h b)
    (hsize : ∀ me ho, i.pMethod = some me → i.pHost = some ho →
      (requestBlock (requestLine me (effectivePath i.pPath)) (documentedHeaders cfg.userAgent ho i.reqFlags.toNat)).length < 2 ^ cfg.sizeBits) :
    ∃ st h' m', HTTPClient_InitializeRequestHeaders cfg m (some h) (some i) = .ok (st, some h', m') ∧ st ≠ .invalidParameter := by
  obtain ⟨_, _, me, ho, h0, h1, h2, h3, h4⟩ := hok
  cases h0
  obtain ⟨me', pa, ho', fl⟩ := i
  dsimp only at h1 h3 hsize
  subst h1 h3
  obtain ⟨st, h', m', e, _, _, _, hst⟩ := C02_init_success_iff (path := pa) (flags := fl) hua hbuf h2 h4 (hsize me ho rfl rfl)
  exact ⟨st, h', m', e, by rcases hst with rfl | rfl | rfl <;> simp⟩

/-- **C62, HTTPClient_AddHeader.** -/
theorem C62_addHeader_invalid {cfg : Cfg} {m : Mem} {rh : Option ReqHeaders} {field value : Option Bytes} (h : ¬ AddParamsOk rh field value) :
    HTTPClient_AddHeader cfg m rh field value = .ok (.invalidParameter, rh, m) := by
  cases rh with
  | none => rfl
  | some r =>
    obtain ⟨pb, bl, hl⟩ := r
    cases pb with
    | none => rfl
    | some b =>
      cases field with
      | none => rfl
      | some f =>
        cases value with
        | none => rfl
        | some v =>
          by_cases h1 : f = []
          · subst h1; rfl
          · by_cases h2 : v = []
            · subst h2
              simp [HTTPClient_AddHeader, h1]
            · by_cases h3 : hl ≤ bl
              · exact absurd ⟨⟨_, _, rfl, rfl, h3⟩, ⟨_, rfl, h1⟩, ⟨_, rfl, h2⟩⟩ h
              · have : bl < hl := by omega
                simp [HTTPClient_AddHeader, h1, h2, this]

/-- **C62, HTTPClient_AddHeader, the converse.** -/
theorem C62_addHeader_valid {cfg : Cfg} {m : Mem} {h : ReqHeaders} {b : Nat} {f v : Bytes} (hok : AddParamsOk (some h) (some f) (some v))
    (hbuf : HasBuf m h b) (hsize : h.headersLen + f.length + v.length + 6 < 2 ^ cfg.sizeBits) :
    ∃ st h' m', HTTPClient_AddHeader cfg m (some h) (some f) (some v) = .ok (st, some h', m') ∧ st ≠ .invalidParameter := by
  obtain ⟨⟨_, _, h0, _, h1⟩, ⟨_, h2, h3⟩, ⟨_, h4, h5⟩⟩ := hok
  cases h0; cases h2; cases h4
  obtain ⟨st, h', m', e, h6⟩ := addHeader_full (cfg := cfg) (m := m) ⟨hbuf, h1, h3, h5, hsize⟩
  refine ⟨st, h', m', e, ?_⟩
  have := h6.2.2.2.2.2.2.2.2.2.2
  rcases this with rfl | rfl | rfl <;> simp

/-- **C62, HTTPClient_AddRangeHeader**: an unusable object, or arguments that are no range. (The converse is C15.) -/
theorem C62_addRange_invalid {cfg : Cfg} {m : Mem} {rh : Option ReqHeaders} {s e : Int} (h : ¬ (RangeObjectOk rh ∧ ValidRange s e)) :
    HTTPClient_AddRangeHeader cfg m rh s e = .ok (.invalidParameter, rh, m) := by
  cases rh with
  | none => rfl
  | some r =>
    obtain ⟨pb, bl, hl⟩ := r
    cases pb with
    | none => rfl
    | some b =>
      by_cases h3 : hl ≤ bl
      · have hv : ¬ ValidRange s e := fun hv => h ⟨⟨_, _, rfl, rfl, h3⟩, hv⟩
        have h4 : ¬ bl < hl := by omega
        unfold ValidRange at hv
        unfold HTTPClient_AddRangeHeader
        dsimp only
        rw [if_neg h4]
        have hr : RANGE_END_OF_FILE = -1 := rfl
        by_cases c1 : e < RANGE_END_OF_FILE
        · rw [if_pos c1]
        · rw [if_neg c1]
          by_cases c2 : s < 0 ∧ e ≠ RANGE_END_OF_FILE
          · rw [if_pos c2]
          · rw [if_neg c2]
            by_cases c3 : e ≠ RANGE_END_OF_FILE ∧ s > e
            · rw [if_pos c3]
            · rw [if_neg c3, if_pos (show s = INT32_MIN from (by omega : s = -2147483648))]
      · have : bl < hl := by omega
        simp [HTTPClient_AddRangeHeader, this]

/-- C62 is about something: invalid parameters of each kind. -/
example : ¬ InitParamsOk (some exHdr) (some ⟨some [], none, some (ascii "h"), 0⟩) ∧ InitParamsOk (some exHdr) (some exInfo) ∧
    ¬ AddParamsOk (some ⟨some 0, 10, 11⟩) (some (ascii "a")) (some (ascii "b")) ∧ AddParamsOk (some exHdr) (some (ascii "a")) (some (ascii "b")) := by
  refine ⟨?_, ⟨⟨_, _, rfl, rfl⟩, ⟨_, _, _, rfl, rfl, by decide, rfl, by decide⟩⟩, ?_, ⟨⟨_, _, rfl, rfl, by decide⟩, ⟨_, rfl, by decide⟩, ⟨_, rfl, by decide⟩⟩⟩
  · rintro ⟨_, ⟨i, me, ho, h0, h1, h2, _⟩⟩; cases h0; cases h1; exact h2 rfl
  · rintro ⟨⟨h, b, h0, h1, h2⟩, _⟩; cases h0; exact absurd h2 (by decide)

end CoreHttp.Props

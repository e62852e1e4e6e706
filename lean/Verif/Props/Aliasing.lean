import Verif.Lemmas.Aliasing
import Verif.Props.Request
import Verif.Props.Lookup

/-!
# C75–C77: strings that lie in the library's own buffers

The request buffer and the response buffer may be the same, and HTTPClient_ReadHeader gives out pointers into it. So an application can give the library,
for its next request, a string that lies in the very buffer that is being written. A string is here a `Src`: pointer and length (Model/RequestPtr.lean);
`s.bytes m` is the string it designates in memory `m`.
-/

namespace CoreHttp.Props
open CoreHttp Spec Ref

/-! ## C75: the same as if the strings had been copied first -/

/-- **C75, AddHeader.** Wherever field and value lie: if the field does not straddle the place where the new line begins (it is in another block, or ends
before, or begins after), and the value is in another block, or ends before the new line, or does not begin before the place it is copied to, then the call does
exactly what it does with copies of the two strings taken before the call. -/
theorem C75_add_header {cfg : Cfg} {m : Mem} {h : ReqHeaders} {b : Nat} {field value : Src} (hbuf : HasBuf m h b)
    (hf : field.Readable m) (hv : value.Readable m)
    (hcf : field.Clear b (stripBlankLine (headerBlock m h)).length (stripBlankLine (headerBlock m h)).length)
    (hcv : value.Clear b (stripBlankLine (headerBlock m h)).length ((stripBlankLine (headerBlock m h)).length + field.len + 2)) :
    HTTPClient_AddHeaderP cfg m (some h) (some field) (some value) =
      HTTPClient_AddHeader cfg m (some h) (some (field.bytes m)) (some (value.bytes m)) := by
  have hlf := Src.bytes_length hf
  have hlv := Src.bytes_length hv
  unfold HTTPClient_AddHeaderP HTTPClient_AddHeader
  simp only [hbuf.1, hlf, hlv]
  by_cases h1 : field.len = 0
  · rw [if_pos h1, if_pos h1]
  by_cases h2 : value.len = 0
  · rw [if_neg h1, if_neg h1, if_pos h2, if_pos h2]
  by_cases h3 : h.headersLen > h.bufferLen
  · rw [if_neg h1, if_neg h1, if_neg h2, if_neg h2, if_pos h3, if_pos h3]
  rw [if_neg h1, if_neg h1, if_neg h2, if_neg h2, if_neg h3, if_neg h3]
  obtain ⟨f, v, _, _, e, ef, ev⟩ := addHeaderP_eq cfg m h hbuf.1 hf hv
  have hk : backRun m b h.headersLen = .ok (stripBlankLine (headerBlock m h)).length := by
    rw [backRun_eq (by have := hbuf.2; omega)]
    simp [kept, headerBlock, hbuf.1]
  rw [e, ef (fun k h' => by rw [hk] at h'; cases h'; exact hcf), ev (fun k h' => by rw [hk] at h'; cases h'; exact hcv)]

theorem hostLine_eq (cfg : Cfg) (fl : UInt32) (me p : Bytes) :
    hostLine cfg fl me.length p.length + 6 = hostOffset cfg.userAgent me p fl.toNat := by
  unfold hostLine hostOffset
  rw [List.length_append, List.length_append, requestLine_length, show (ascii "Host: ").length = 6 from rfl]
  simp only [noUA_flag]
  cases h : fl.toNat.testBit 1 with
  | false =>
    rw [if_pos rfl, if_neg (by simp), headerLine_length]
    rfl
  | true => simp

theorem effectivePath_len {m : Mem} {path : Option Src} (h : ∀ s, path = some s → s.Readable m) :
    (effectivePath (path.map (Src.bytes m))).length = (pathOrDefaultP path).len := by
  rw [← effectivePath_eq, pathOrDefault_bytes h, Src.bytes_length (pathOrDefaultP_readable h)]

/-- **C75, InitializeRequestHeaders.** If method, path and host each lie in another block than the request buffer, or begin in it at or after the end (method,
path) or the beginning (host) of the place they are copied to, then the call does exactly what it does with copies of the three strings taken before. -/
theorem C75_init {cfg : Cfg} {m : Mem} {h : ReqHeaders} {b : Nat} {me ho : Src} {path : Option Src} {fl : UInt32} (hbuf : HasBuf m h b)
    (hua : cfg.userAgent ≠ []) (hm : me.Readable m) (hp : ∀ s, path = some s → s.Readable m) (hh : ho.Readable m)
    (hsize : hostOffset cfg.userAgent (me.bytes m) (effectivePath (path.map (Src.bytes m))) fl.toNat < 2 ^ cfg.sizeBits)
    (hcm : me.Clear b 0 me.len) (hcp : ∀ s, path = some s → s.Clear b 0 (me.len + 1 + s.len))
    (hch : ho.Clear b 0 (hostOffset cfg.userAgent (me.bytes m) (effectivePath (path.map (Src.bytes m))) fl.toNat)) :
    HTTPClient_InitializeRequestHeadersP cfg m (some h) (some ⟨some me, path, some ho, fl⟩) =
      HTTPClient_InitializeRequestHeaders cfg m (some h) (some ⟨some (me.bytes m), path.map (Src.bytes m), some (ho.bytes m), fl⟩) := by
  have hl := Src.bytes_length hm
  have hpl := effectivePath_len hp
  rw [← hostLine_eq] at hsize hch
  rw [hl, hpl] at hsize hch
  obtain ⟨p', ho', _, _, e, ep, eh⟩ := initP_eq cfg m h hbuf.1 (fl := fl) hm hp hh hcm
    (fun s hs => (hcp s hs).mono (Nat.zero_le _) (Nat.le_refl _))
  rw [e, ep hcp, eh hbuf.2 hua (by omega) hch]

/-- **C75, strings elsewhere.** In particular strings in any block other than the request buffer, a response buffer for instance, need no copy. -/
theorem C75_elsewhere {cfg : Cfg} {m : Mem} {h : ReqHeaders} {b c : Nat} (hbuf : HasBuf m h b) (hc : c ≠ b) {o n : Nat} (hr : o + n ≤ (m c).length)
    (f : Bytes) : HTTPClient_AddHeaderP cfg m (some h) (some (.lit f)) (some (.at c o n)) =
      HTTPClient_AddHeader cfg m (some h) (some f) (some (((m c).drop o).take n)) :=
  C75_add_header hbuf (field := .lit f) (value := .at c o n) trivial hr trivial (.inl hc)

/-- **C75, following a redirect without copying.** The response buffer holds the header section of a well-formed response, one of whose fields is looked up; the pointer
returned is used as the path of the next request, whose buffer may be the same one. If the buffers are different, or the value begins at least a method, a
space and a value's length from the start, then a successful initialisation has made the request for exactly that path. -/
theorem C75_redirect {σ : Type} {w : World PLog σ} {resp : Resp σ} {b rb : Nat} {head : Bool} {r : Response} {name : Bytes} {f : Field}
    (hb : resp.pBuffer = some b) (hroom : resp.bufferLen ≤ (w.mem b).length) (ok : r.Ok head) (hlen : r.head.length ≤ resp.bufferLen)
    (hhd : (w.mem b).take r.head.length = r.head) (hname : name ≠ []) (hf : FirstField name r f) (hv : f.value ≠ [])
    {cfg : Cfg} {h : ReqHeaders} {me ho : Bytes} {fl : UInt32} (hbuf : HasBuf w.mem h rb) (hua : cfg.userAgent ≠ [])
    (hsize : (requestBlock (requestLine me f.value) (documentedHeaders cfg.userAgent ho fl.toNat)).length < 2 ^ cfg.sizeBits) :
    ∃ a w', HTTPClient_ReadHeader httpParser (some resp) (some name) (some none) (some 0) w =
        (.ok (.success, some (some a), some f.value.length), w') ∧ w'.mem = w.mem ∧
      (rb ≠ b ∨ me.length + 1 + f.value.length ≤ a →
        ∀ h' m', HTTPClient_InitializeRequestHeadersP cfg w'.mem (some h) (some ⟨some (.lit me), some (.at b a f.value.length), some (.lit ho), fl⟩) =
            .ok (.success, some h', m') →
          headerBlock m' h' = requestBlock (requestLine me f.value) (documentedHeaders cfg.userAgent ho fl.toNat)) := by
  obtain ⟨l', k', w', e, hmem, rfl, _, hd⟩ := C65_lookup hb hroom ok hlen hhd hname hf none 0
  obtain ⟨a, rfl, hin, hval⟩ := hd hv
  refine ⟨a, w', e, hmem, fun hclear h' m' hrun => ?_⟩
  rw [hmem] at hrun
  have hbytes : (Src.at b a f.value.length).bytes w.mem = f.value := hval
  have hpath : effectivePath (some f.value) = f.value := by
    simp only [effectivePath]; rw [if_neg (by simpa using hv)]
  rw [C75_init (me := .lit me) (path := some (.at b a f.value.length)) (ho := .lit ho) hbuf hua trivial
    (fun s hs => by cases hs; exact (by simp only [Src.Readable]; omega)) trivial ?_ trivial ?_ trivial] at hrun
  · have hrun' : HTTPClient_InitializeRequestHeaders cfg w.mem (some h) (some ⟨some me, some f.value, some ho, fl⟩) = .ok (.success, some h', m') := by
      rw [← hbytes]; exact hrun
    have := (C01_init_layout hua hbuf (by rw [hpath]; exact hsize) hrun').1
    rw [hpath] at this
    exact this
  · rw [Option.map_some, hbytes, hpath]
    refine Nat.lt_of_le_of_lt ?_ hsize
    unfold hostOffset requestBlock documentedHeaders
    cases fl.toNat.testBit 1 <;> cases fl.toNat.testBit 0 <;>
      simp [Src.bytes, headerLines, headerLine, List.length_append, ascii] <;> omega
  · intro s hs
    cases hs
    simp only [Src.Clear, Src.len]
    rcases hclear with h | h
    · exact .inl (fun e => h e.symm)
    · exact .inr (.inr h)

/-! ## C76: AddHeader with any overlap -/

/-- **C76.** Wherever field and value lie, overlapping the place they are copied to in any way: AddHeader returns normally and changes nothing outside the buffer; it
reports HTTPInsufficientMemory exactly when the line does not fit; when it succeeds the header block is the old one with one line added, whose field and value
have the lengths asked for, and contain no CR, LF (nor ':' in the field). -/
theorem C76_any_overlap {cfg : Cfg} {m : Mem} {h : ReqHeaders} {b : Nat} {field value : Src} (hbuf : HasBuf m h b) (hle : h.headersLen ≤ h.bufferLen)
    (hf : field.Readable m) (hv : value.Readable m) (hf0 : field.len ≠ 0) (hv0 : value.len ≠ 0)
    (hsize : h.headersLen + field.len + value.len + 6 < 2 ^ cfg.sizeBits) :
    ∃ st h' m', HTTPClient_AddHeaderP cfg m (some h) (some field) (some value) = .ok (st, some h', m') ∧
      h'.pBuffer = h.pBuffer ∧ h'.bufferLen = h.bufferLen ∧ h'.headersLen ≤ h'.bufferLen ∧ FrameBuf m m' b h.bufferLen ∧
      (st = .success ∨ st = .insufficientMemory ∨ st = .invalidCharacter) ∧
      (st = .insufficientMemory ↔ h.bufferLen < (stripBlankLine (headerBlock m h)).length + field.len + value.len + 6) ∧
      (st = .success → ∃ f v : Bytes, f.length = field.len ∧ v.length = value.len ∧ CleanField f ∧ CleanValue v ∧
        headerBlock m' h' = stripBlankLine (headerBlock m h) ++ headerLine f v ++ crlf ∧ h'.headersLen = (headerBlock m' h').length) ∧
      (st ≠ .success → h' = h) := by
  obtain ⟨f, v, hfl, hvl, e, _, _⟩ := addHeaderP_eq cfg m h hbuf.1 hf hv
  have pre : AddPre cfg m h b f v := ⟨hbuf, hle, by intro e; rw [e] at hfl; exact hf0 hfl.symm, by intro e; rw [e] at hvl; exact hv0 hvl.symm, by
    rw [hfl, hvl]; exact hsize⟩
  obtain ⟨st, h', m', e', h1, h2, h3, h4, h5, h6, h7, h8, h9, h10, h11⟩ := addHeader_full pre
  refine ⟨st, h', m', ?_, h1.trans hbuf.1.symm, h2, h3, h4, h11, by rw [hfl, hvl] at h5; exact h5, fun hs => ?_, fun hs => ?_⟩
  · rw [← e']
    unfold HTTPClient_AddHeaderP HTTPClient_AddHeader
    simp only [hbuf.1]
    rw [if_neg hf0, if_neg hv0, if_neg (by omega), hfl, hvl, if_neg hf0, if_neg hv0, if_neg (by omega), e]
  · obtain ⟨g1, g2⟩ := h10 hs
    exact ⟨f, v, hfl, hvl, (h7.mp hs).2.1, (h7.mp hs).2.2, g1, g2⟩
  · rcases h11 with h | h | h
    · exact absurd h hs
    · exact (h6 h).1
    · exact (h9 h).1

/-! ## C77: what overlap can do -/

/-- The two bounds of C75 are the right ones. A value that begins one byte before the place it is copied to is overwritten while it is being copied: AddHeader reports
success, and the header has another value than the string had before the call. -/
theorem C75_bound_needed : ∃ (m : Mem) (h h' : ReqHeaders) (m' : Mem),
    HasBuf m h 0 ∧ (Src.at 0 4 3).Readable m ∧ (Src.at 0 4 3).bytes m = ascii "xyz" ∧
    HTTPClient_AddHeaderP exCfg m (some h) (some (.lit (ascii "abc"))) (some (.at 0 4 3)) = .ok (.success, some h', m') ∧
    headerBlock m' h' = ascii "abc:    \r\n\r\n" := by
  refine ⟨fun _ => ascii "GET xyz 12345678", ⟨some 0, 16, 0⟩, ⟨some 0, 16, 12⟩, _, ⟨rfl, by decide⟩, by decide, by decide, rfl, by decide⟩

/-- **C77 is false of the code**: an application that follows a redirect, or repeats a request, with a path that lies in the (shared) buffer gets the request for that
path. With a path that overlaps the place it is copied to, InitializeRequestHeaders calls memcpy with overlapping memory, which is undefined behaviour, for every
such path, if the request line fits. -/
theorem C77_refuted {cfg : Cfg} {m : Mem} {h : ReqHeaders} {b : Nat} {me ho : Bytes} {o n : Nat} {fl : UInt32} (hbuf : HasBuf m h b) (hme : me ≠ []) (hho : ho ≠ [])
    (hfit : me.length + n + 12 ≤ h.bufferLen) (hw : h.bufferLen < 2 ^ cfg.sizeBits)
    (hr : o + n ≤ (m b).length) (hlo : me.length + 1 < o + n) (hhi : o < me.length + 1 + n) :
    HTTPClient_InitializeRequestHeadersP cfg m (some h) (some ⟨some (.lit me), some (.at b o n), some (.lit ho), fl⟩) = .fault .overlap := by
  have h1 : me.length ≠ 0 := by simpa using hme
  have h2 : ho.length ≠ 0 := by simpa using hho
  have hn : n ≠ 0 := by omega
  have hpd : pathOrDefaultP (some (.at b o n)) = .at b o n := by simp [pathOrDefaultP, Src.len, hn]
  rw [initP_form _ _ _ hbuf.1]
  rw [if_neg (show (Src.lit me).len ≠ 0 from h1), if_neg (show (Src.lit ho).len ≠ 0 from h2)]
  rw [writeRequestLineP_form _ _ { h with headersLen := 0 } hbuf.1, hpd]
  have hll : lineLen cfg (Src.lit me).len (Src.at b o n).len = me.length + n + 12 := by
    have e8 : PROTOCOL_VERSION.length = 8 := rfl
    have e2 : LINE_SEPARATOR.length = 2 := rfl
    simp only [lineLen, Src.len, e8, e2]
    rw [szAdd_eq (a := me.length) (by omega), szAdd_eq (a := me.length + 1) (by omega),
      szAdd_eq (a := me.length + 1 + 1) (by omega), szAdd_eq (a := me.length + 1 + 1 + 8) (by omega), szAdd_eq (by omega)]
    omega
  rw [hll, szAdd_eq (by simp only; omega), if_neg (by simp only; omega), show (Src.lit me).len = me.length from rfl, decide_eq_true h1]
  have hw1 : memWrite (m b) 0 me = .ok (splice (m b) 0 me) := by
    unfold memWrite; rw [if_pos (by have := hbuf.2; omega)]
  have hw2 : memWrite (splice (m b) 0 me) me.length [SPACE] = .ok (splice (splice (m b) 0 me) me.length [SPACE]) := by
    unfold memWrite; rw [if_pos (by rw [splice_length (by have := hbuf.2; omega)]; have := hbuf.2; simp only [List.length_singleton]; omega)]
  simp only [cAssert_true, Run.ok_bind, lineRunP, memcpyP_lit, hw1, hw2, Mem.set_same, Mem.set_set, Src.len]
  unfold memcpyP
  simp only [true_and]
  rw [if_pos ⟨by omega, by omega⟩]
  rfl

/-- A buffer that holds a redirect. -/
def rdMem : Mem := fun _ =>
  ascii "HTTP/1.1 301 Moved Permanently\r\nLocation: /a/path/that/is/long/enough/to/reach/back/to/where/it/begins\r\n\r\n" ++ List.replicate 200 0
theorem rdLen : 256 ≤ (rdMem 0).length := by
  simp only [rdMem, List.length_append, List.length_replicate]
  have : (ascii "HTTP/1.1 301 Moved Permanently\r\nLocation: /a/path/that/is/long/enough/to/reach/back/to/where/it/begins\r\n\r\n").length = 106 := by decide +kernel
  omega

/-- C77 is about a real situation: the buffer holds a redirect, the path is the value of its Location field. -/
example : ∃ (m : Mem) (h : ReqHeaders), HasBuf m h 0 ∧
    (Src.at 0 42 60).bytes m = ascii "/a/path/that/is/long/enough/to/reach/back/to/where/it/begins" ∧
    HTTPClient_InitializeRequestHeadersP exCfg m (some h) (some ⟨some (.lit (ascii "GET")), some (.at 0 42 60), some (.lit (ascii "x")), 0⟩) = .fault .overlap := by
  refine ⟨rdMem, ⟨some 0, 256, 0⟩, ⟨rfl, rdLen⟩, by decide +kernel, C77_refuted (b := 0) (me := ascii "GET") (ho := ascii "x") (o := 42) (n := 60) ⟨rfl, rdLen⟩
    (by decide) (by decide) (by decide) (by decide) ?_ (by decide) (by decide)⟩
  exact Nat.le_trans (by decide) rdLen

/-- **C77, partial.** Whatever overlap there is with the host, and if method and path do not overlap the places they are copied to: InitializeRequestHeaders returns normally,
changes nothing outside the buffer, and when it succeeds the block is a complete request with the method asked for, a path and a host of the lengths asked for, and a host
without CR and LF. (Missing: that the path is the path asked for needs the bound of `C75_init`, and a path overlapping its own place is undefined behaviour.) -/
theorem C77_partial {cfg : Cfg} {m : Mem} {h : ReqHeaders} {b : Nat} {me ho path : Src} {fl : UInt32} (hbuf : HasBuf m h b) (hua : cfg.userAgent ≠ [])
    (hm : me.Readable m) (hp : path.Readable m) (hh : ho.Readable m) (hm0 : me.len ≠ 0) (hp0 : path.len ≠ 0) (hh0 : ho.len ≠ 0)
    (hsize : me.len + path.len + ho.len + cfg.userAgent.length + 100 < 2 ^ cfg.sizeBits)
    (hcm : me.Clear b 0 me.len) (hcp : path.Clear b (me.len + 1) (me.len + 1 + path.len)) :
    ∃ st h' m', HTTPClient_InitializeRequestHeadersP cfg m (some h) (some ⟨some me, some path, some ho, fl⟩) = .ok (st, some h', m') ∧
      h'.pBuffer = h.pBuffer ∧ h'.bufferLen = h.bufferLen ∧ h'.headersLen ≤ h'.bufferLen ∧ FrameBuf m m' b h.bufferLen ∧
      (st = .success → ∃ p o : Bytes, p.length = path.len ∧ o.length = ho.len ∧ CleanValue o ∧
        headerBlock m' h' = requestBlock (requestLine (me.bytes m) p) (documentedHeaders cfg.userAgent o fl.toNat)) := by
  obtain ⟨p', o, hpl, hol, e, _, _⟩ := initP_eq cfg m h hbuf.1 (fl := fl) (path := some path) hm (fun s hs => by cases hs; exact hp) hh hcm
    (fun s hs => by cases hs; exact hcp)
  cases p' with
  | none => simp at hpl
  | some p =>
  simp only [Option.map_some, Option.some.injEq] at hpl
  have hml := Src.bytes_length hm
  have hmne : me.bytes m ≠ [] := by intro e; rw [e] at hml; exact hm0 hml.symm
  have hone : o ≠ [] := by intro e; rw [e] at hol; exact hh0 hol.symm
  have hpne : p.length ≠ 0 := by omega
  have hpe : effectivePath (some p) = p := by simp only [effectivePath]; rw [if_neg hpne]
  have hsz : (requestBlock (requestLine (me.bytes m) p) (documentedHeaders cfg.userAgent o fl.toNat)).length < 2 ^ cfg.sizeBits := by
    refine Nat.lt_of_le_of_lt ?_ hsize
    unfold requestBlock documentedHeaders
    have e1 : (ascii "User-Agent").length = 10 := rfl
    have e2 : (ascii "Host").length = 4 := rfl
    have e3 : (ascii "Connection").length = 10 := rfl
    have e4 : (ascii "keep-alive").length = 10 := rfl
    cases fl.toNat.testBit 1 <;> cases fl.toNat.testBit 0 <;>
      simp [headerLines, headerLine_length, requestLine_length, List.length_append, e1, e2, e3, e4, hml, hpl, hol, crlf] <;> omega
  have hi := initHeaders_eq cfg fl o
  obtain ⟨st, h', m', e', h1, h2, h3, h4, _, h6, h7, _⟩ := init_spec (cfg := cfg) (m := m) (h := h) (b := b)
    (info := ⟨some (me.bytes m), some p, some o, fl⟩) hbuf.1 rfl rfl hmne hone (fun _ => hua) hbuf.2
    (by dsimp only; rw [hi, effectivePath_eq, hpe]; exact hsz)
  refine ⟨st, h', m', e.trans e', h1.trans hbuf.1.symm, h2, h3, h4, fun hs => ⟨p, o, hpl, hol, ?_, ?_⟩⟩
  · exact ((h7.mp hs).2 (HOST_FIELD, o) (by simp [initHeaders])).2
  · have := (h6 hs).eq
    dsimp only at this
    rw [hi, effectivePath_eq, hpe] at this
    exact this

/-! ## The hypotheses are met -/

/-- Status and header block after a call. -/
def outBlock : Run (Status × Option ReqHeaders × Mem) → Option (Status × Bytes)
  | .ok (st, some h, m) => some (st, headerBlock m h)
  | _ => none

/-- A redirect to "/new", as the answer to a HEAD request. -/
def rdResponse : Response := ⟨.v11, 301, ascii "Moved", [⟨ascii "Location", ascii " ", ascii "/new"⟩], .none⟩

theorem rdResponse_ok : rdResponse.Ok true := by
  refine ⟨by decide, by decide +kernel, ?_, ?_⟩
  · intro f hf
    simp only [rdResponse, List.mem_cons, List.not_mem_nil, or_false] at hf
    subst hf; exact fieldOk_of (by decide +kernel)
  · exact ⟨.inl rfl, .inl (by decide +kernel)⟩

/-- A shared buffer that holds it. -/
def rdShared : Mem := fun _ => rdResponse.head ++ List.replicate 100 0

/-- C75: the redirect is followed in the same buffer, with the path in place; the request is complete and asks for "/new". -/
example (w : World PLog Unit) (hm : w.mem = rdShared) : ∃ a w',
    HTTPClient_ReadHeader httpParser (some { lkResp with bufferLen := 120 }) (some (ascii "location")) (some none) (some 0) w =
      (.ok (.success, some (some a), some 4), w') ∧ w'.mem = w.mem ∧
    (0 ≠ 0 ∨ 8 ≤ a → ∀ h' m', HTTPClient_InitializeRequestHeadersP exCfg w'.mem (some ⟨some 0, 120, 0⟩)
        (some ⟨some (.lit (ascii "GET")), some (.at 0 a 4), some (.lit (ascii "x.org")), 2⟩) = .ok (.success, some h', m') →
      headerBlock m' h' = requestBlock (requestLine (ascii "GET") (ascii "/new")) (documentedHeaders exCfg.userAgent (ascii "x.org") 2)) := by
  have hl : (rdShared 0).length = 138 := by decide +kernel
  exact C75_redirect (r := rdResponse) (head := true) (b := 0) (rb := 0) (f := ⟨ascii "Location", ascii " ", ascii "/new"⟩) (me := ascii "GET") (fl := 2)
    rfl (by rw [hm, hl]; decide) rdResponse_ok (by decide +kernel) (by rw [hm]; decide +kernel) (by decide)
    ⟨[], [], rfl, (C56_compare _ _ 8 rfl rfl).2.mp (by decide +kernel), by simp⟩ (by decide) ⟨rfl, by rw [hm, hl]; decide⟩ (by decide) (by decide +kernel)

/-- ... and there is such a run: the value is at offset 30, and the initialisation succeeds. -/
example : (Src.at 0 30 4).bytes rdShared = ascii "/new" ∧
    outBlock (HTTPClient_InitializeRequestHeadersP exCfg rdShared (some ⟨some 0, 120, 0⟩)
        (some ⟨some (.lit (ascii "GET")), some (.at 0 30 4), some (.lit (ascii "x.org")), 2⟩)) = some (.success, ascii "GET /new HTTP/1.1\r\nHost: x.org\r\n\r\n") := ⟨by decide +kernel, by decide +kernel⟩

/-- C75 for AddHeader: a value later in the same buffer, overlapping the new line but not beginning before its place; and one in the header block itself. -/
example : let m : Mem := fun _ => ascii "GET / HTTP/1.1\r\nA: b\r\n\r\n...valuevalue.."
    let h : ReqHeaders := ⟨some 0, 39, 24⟩
    HasBuf m h 0 ∧ (Src.at 0 27 10).Readable m ∧ (stripBlankLine (headerBlock m h)).length = 22 ∧
    (Src.at 0 27 10).Clear 0 22 (22 + 1 + 2) ∧ (Src.at 0 4 10).Clear 0 22 (22 + 1 + 2) ∧
    outBlock (HTTPClient_AddHeaderP exCfg m (some h) (some (.at 0 16 1)) (some (.at 0 27 10))) = some (.success, ascii "GET / HTTP/1.1\r\nA: b\r\nA: valuevalue\r\n\r\n") := by
  refine ⟨⟨rfl, by decide⟩, by decide, by decide +kernel, by decide, by decide, by decide +kernel⟩

/-- C76: an overlapping value; the line is well formed, with another value. -/
example : let m : Mem := fun _ => ascii "GET xyz 12345678"
    let h : ReqHeaders := ⟨some 0, 16, 0⟩
    HasBuf m h 0 ∧ (Src.at 0 4 3).Readable m ∧ ¬ (Src.at 0 4 3).Clear 0 0 5 ∧
    outBlock (HTTPClient_AddHeaderP exCfg m (some h) (some (.lit (ascii "abc"))) (some (.at 0 4 3))) = some (.success, ascii "abc:    \r\n\r\n") := by
  refine ⟨⟨rfl, by decide⟩, by decide, by decide, by decide +kernel⟩

/-- C77, partial: a host that is overwritten before it is read; the request is well formed. -/
example : let m : Mem := fun _ => ascii "www.example.org" ++ List.replicate 100 0
    let h : ReqHeaders := ⟨some 0, 100, 0⟩
    HasBuf m h 0 ∧ (Src.at 0 0 14).Readable m ∧
    outBlock (HTTPClient_InitializeRequestHeadersP exCfg m (some h) (some ⟨some (.lit (ascii "GET")), some (.lit (ascii "/")), some (.at 0 0 14), 2⟩)) =
      some (.success, ascii "GET / HTTP/1.1\r\nHost: GET / HTTP/1.1\r\n\r\n") := by
  refine ⟨⟨rfl, by decide +kernel⟩, by decide +kernel, by decide +kernel⟩

end CoreHttp.Props

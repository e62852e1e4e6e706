import Verif.Props.Send

/-! # C81: the room an application leaves for the Content-Length header

core_http_client.h:68–73 defines HTTP_MAX_CONTENT_LENGTH_HEADER_LENGTH, "the maximum Content-Length header field and value that could be written to the
request header buffer", and core_http_client.h:355–362, 785–788 and 850–853 send the application to it for the space a buffer needs so that the library can add
its Content-Length header. -/

namespace CoreHttp.Props
open CoreHttp Spec
variable {π σ : Type} {cfg : Cfg} {T : Transport σ} {send : σ → Bytes → Int × σ} {clock : TimeFn σ} {h : ReqHeaders} {b n : Nat} {flags : UInt32}

/-- `sizeof( "Content-Length: 4294967295" ) - 1U` (core_http_client.h:73). -/
def HTTP_MAX_CONTENT_LENGTH_HEADER_LENGTH : Nat := (ascii "Content-Length: 4294967295").length

theorem room_value : HTTP_MAX_CONTENT_LENGTH_HEADER_LENGTH = 26 := by decide

/-- The bytes the Content-Length header adds to a block that ends in its blank line. -/
theorem wireHeaders_grow {block : Bytes} (hblank : crlf ++ crlf <:+ block) {n f : Nat} (ha : addsContentLength n f = true) :
    (wireHeaders block n f).length = block.length + (18 + (decimal n).length) := by
  have h4 : 4 ≤ block.length := hblank.length_le
  have hc : crlf.length = 2 := by decide
  have hf : (ascii "Content-Length").length = 14 := by decide
  unfold wireHeaders stripBlankLine headerLine
  rw [if_pos ha, if_pos hblank]
  simp only [List.length_append, List.length_take, List.length_cons, List.length_nil, hc, hf]
  omega

theorem block_length {m : Mem} (hb : HasBuf m h b) (hle : h.headersLen ≤ h.bufferLen) : (headerBlock m h).length = h.headersLen := by
  have := hb.2
  unfold headerBlock
  rw [hb.1]
  simp only [List.length_take]
  omega

/-- **C81, exactly.** For every request block that ends in its blank line and every body length whose Content-Length the library writes (positive, at most
INT32_MAX, header not disabled): HTTPClient_SendHttpHeaders returns HTTPInsufficientMemory, having sent nothing and changed nothing, when fewer than 18 bytes
plus one byte for each decimal digit of the length are free behind the headers; with that many bytes free it never does, and when it succeeds the block with
its Content-Length is what the transport has accepted. -/
theorem C81_room_exact {w : World π σ} (pre : SendPre cfg T send clock w.mem h b) (hblank : crlf ++ crlf <:+ headerBlock w.mem h)
    (hadd : addsContentLength n flags.toNat = true) (hmax : n ≤ 2147483647) (fuel : Nat) :
    (h.bufferLen - h.headersLen < 18 + (decimal n).length →
      HTTPClient_SendHttpHeaders cfg fuel (some T) clock (some h) n flags w = (.ok (.insufficientMemory, some h), w)) ∧
    (18 + (decimal n).length ≤ h.bufferLen - h.headersLen →
      ∃ r w' evs, HTTPClient_SendHttpHeaders cfg fuel (some T) clock (some h) n flags w = (r, w') ∧ w'.log = w.log ++ evs ∧
        (∀ st oh, r = .ok (st, oh) → st ≠ .insufficientMemory) ∧
        (∀ oh, r = .ok (.success, oh) → accepted evs = wireHeaders (headerBlock w.mem h) n flags.toNat)) := by
  have hlen := wireHeaders_grow hblank hadd
  rw [block_length pre.buf pre.le] at hlen
  have hle := pre.le
  refine ⟨fun hno => C18_nothing_sent pre hmax (by omega) fuel, fun hfit => ?_⟩
  obtain ⟨r, w', evs, e, hl, _, h2, h3, _⟩ := C17_content_length (flags := flags) pre hmax (by omega) fuel
  refine ⟨r, w', evs, e, hl, fun st oh hr => ?_, h2⟩
  rcases (h3 st oh hr).1 with rfl | rfl <;> intro hh <;> cases hh

/-- **C81, refuted.** With exactly HTTP_MAX_CONTENT_LENGTH_HEADER_LENGTH bytes free behind the headers, every body of 100 000 000 bytes or more (up to
INT32_MAX) is refused with HTTPInsufficientMemory: the constant leaves out the CR LF that ends the header. -/
theorem C81_refuted {w : World π σ} (pre : SendPre cfg T send clock w.mem h b) (hblank : crlf ++ crlf <:+ headerBlock w.mem h)
    (hroom : h.bufferLen = h.headersLen + HTTP_MAX_CONTENT_LENGTH_HEADER_LENGTH)
    (hadd : addsContentLength n flags.toNat = true) (hbig : 100000000 ≤ n) (hmax : n ≤ 2147483647) (fuel : Nat) :
    HTTPClient_SendHttpHeaders cfg fuel (some T) clock (some h) n flags w = (.ok (.insufficientMemory, some h), w) := by
  have hd : 8 + 1 ≤ (decimal n).length := decimal_length_ge (k := 8) (by omega)
  rw [room_value] at hroom
  exact (C81_room_exact pre hblank hadd hmax fuel).1 (by omega)

/-- **C81, partial.** With HTTP_MAX_CONTENT_LENGTH_HEADER_LENGTH bytes free, a body of fewer than 100 000 000 bytes (missing: longer ones) is never refused
for want of room. -/
theorem C81_room_partial {w : World π σ} (pre : SendPre cfg T send clock w.mem h b) (hblank : crlf ++ crlf <:+ headerBlock w.mem h)
    (hroom : h.headersLen + HTTP_MAX_CONTENT_LENGTH_HEADER_LENGTH ≤ h.bufferLen)
    (hadd : addsContentLength n flags.toNat = true) (hsmall : n < 100000000) (fuel : Nat) :
    ∃ r w' evs, HTTPClient_SendHttpHeaders cfg fuel (some T) clock (some h) n flags w = (r, w') ∧ w'.log = w.log ++ evs ∧
      (∀ st oh, r = .ok (st, oh) → st ≠ .insufficientMemory) ∧
      (∀ oh, r = .ok (.success, oh) → accepted evs = wireHeaders (headerBlock w.mem h) n flags.toNat) := by
  have hd : (decimal n).length ≤ 7 + 1 := decimal_length_le (k := 7) (by omega)
  rw [room_value] at hroom
  exact (C81_room_exact pre hblank hadd (by omega) fuel).2 (by omega)

/-- **C81, what suffices.** Two more bytes than the constant are always enough. -/
theorem C81_room_suffices {w : World π σ} (pre : SendPre cfg T send clock w.mem h b) (hblank : crlf ++ crlf <:+ headerBlock w.mem h)
    (hroom : h.headersLen + (HTTP_MAX_CONTENT_LENGTH_HEADER_LENGTH + 2) ≤ h.bufferLen)
    (hadd : addsContentLength n flags.toNat = true) (hmax : n ≤ 2147483647) (fuel : Nat) :
    ∃ r w' evs, HTTPClient_SendHttpHeaders cfg fuel (some T) clock (some h) n flags w = (r, w') ∧ w'.log = w.log ++ evs ∧
      (∀ st oh, r = .ok (st, oh) → st ≠ .insufficientMemory) ∧
      (∀ oh, r = .ok (.success, oh) → accepted evs = wireHeaders (headerBlock w.mem h) n flags.toNat) := by
  have hd : (decimal n).length ≤ 9 + 1 := decimal_length_le (k := 9) (by omega)
  rw [room_value] at hroom
  exact (C81_room_exact pre hblank hadd hmax fuel).2 (by omega)

/-- The hypotheses of the theorems above hold for "GET / HTTP/1.1\r\n\r\n" in a buffer of 44 bytes (26 free) and in one of 46 (28 free); a body of
100 000 000 bytes is refused in the first and accepted in the second. -/
theorem exPreRoom (k : Nat) (h1 : 18 ≤ k) (h2 : k ≤ 64) (m : ExEnv) : SendPre exCfg exTransport exSend (.user exClock)
    (⟨m, exMemS, []⟩ : World Unit ExEnv).mem ⟨some 0, k, 18⟩ 0 := by
  have e : (exMemS 0).length = 64 := by decide
  have hb : 94 < 2 ^ exCfg.sizeBits := by decide
  exact ⟨rfl, exSendOk, (by intro h; cases h), ⟨rfl, by show k ≤ (exMemS 0).length; omega⟩, h1, by show k + 30 < 2 ^ exCfg.sizeBits; omega⟩

example : crlf ++ crlf <:+ headerBlock exMemS ⟨some 0, 44, 18⟩ := by decide
example : addsContentLength 100000000 (0 : UInt32).toNat = true := by decide
example : (⟨some 0, 44, 18⟩ : ReqHeaders).bufferLen = 18 + HTTP_MAX_CONTENT_LENGTH_HEADER_LENGTH := by decide
example (m : ExEnv) (fuel : Nat) : HTTPClient_SendHttpHeaders exCfg fuel (some exTransport) (.user exClock) (some ⟨some 0, 44, 18⟩) 100000000 0
    (⟨m, exMemS, []⟩ : World Unit ExEnv) = (.ok (.insufficientMemory, some ⟨some 0, 44, 18⟩), ⟨m, exMemS, []⟩) :=
  C81_refuted (exPreRoom 44 (by decide) (by decide) m) (by show crlf ++ crlf <:+ headerBlock exMemS ⟨some 0, 44, 18⟩; decide) (by decide) (by decide) (by decide) (by decide) fuel

end CoreHttp.Props

import Verif.Props.Request

/-! # C84: any string as HTTP_USER_AGENT_VALUE

core_http_config_defaults.h:46–58: the value of the User-Agent header is configured at compile time; "Possible values: Any string." -/

namespace CoreHttp.Props
open CoreHttp Spec
variable {cfg : Cfg} {m : Mem} {h : ReqHeaders} {b : Nat} {me ho : Bytes} {path : Option Bytes} {flags : UInt32}

theorem addHeader_emptyValue {m : Mem} {h : ReqHeaders} (hb : h.pBuffer = some b) {f : Bytes} (hf : f ≠ []) :
    addHeader cfg m h (some f) (some []) = .fault (.assertFail 1363) := by
  unfold addHeader
  have : f.length ≠ 0 := by simpa using hf
  simp only [hb, decide_eq_true this, cAssert_true, Run.ok_bind]
  rfl

/-- **C84, refuted.** With the empty string configured, every HTTPClient_InitializeRequestHeaders call with valid parameters and without
HTTP_REQUEST_NO_USER_AGENT_FLAG, for which the request line fits the buffer, runs into a failing assertion. -/
theorem C84_refuted_empty (hua : cfg.userAgent = []) (hbuf : HasBuf m h b) (hme : me ≠ []) (hho : ho ≠ []) (hf : flags.toNat.testBit 1 = false)
    (hfit : (requestLine me (effectivePath path)).length ≤ h.bufferLen) (hsize : h.bufferLen < 2 ^ cfg.sizeBits) :
    HTTPClient_InitializeRequestHeaders cfg m (some h) (some ⟨some me, path, some ho, flags⟩) = .fault (.assertFail 1363) := by
  have hd := initHeaders_eq cfg flags ho
  rw [init_eq hbuf.1 rfl rfl hme hho]
  dsimp only
  rw [← effectivePath_eq] at hfit
  rw [writeRequestLine_eq (h := { h with headersLen := 0 }) hbuf.1 rfl hme hbuf.2 (by omega), if_neg (by dsimp only; omega)]
  have hi : initHeaders cfg flags ho = (USER_AGENT_FIELD, []) :: (initHeaders cfg flags ho).tail := by
    have hu : REQUEST_NO_USER_AGENT_FLAG &&& flags = 0 := by
      refine Classical.byContradiction fun hn => ?_
      have h2 : initHeaders cfg flags ho = documentedHeaders cfg.userAgent ho flags.toNat := hd
      unfold initHeaders documentedHeaders at h2
      rw [if_neg hn, hf] at h2
      simp only [List.nil_append, Bool.false_eq_true, if_false, List.cons_append] at h2
      have h3 := congrArg (fun l => (l.head?.map Prod.fst)) h2
      simp only [List.head?_cons, Option.map_some, Option.some.injEq] at h3
      exact absurd h3 (by decide)
    unfold initHeaders
    rw [if_pos hu, hua]; rfl
  rw [hi]
  simp only [Run.ok_bind, addAll, if_true]
  rw [addHeader_emptyValue (b := b) (h := ⟨h.pBuffer, h.bufferLen, (requestLine me (pathOrDefault path)).length⟩) hbuf.1 (by decide)]
  rfl

/-- **C84, refuted (line breaks).** With a CR or LF in the configured value, no such call ever succeeds. -/
theorem C84_refuted_lineBreak (hua : cfg.userAgent ≠ []) (hbad : ¬ CleanValue cfg.userAgent) (hbuf : HasBuf m h b) (hme : me ≠ []) (hho : ho ≠ [])
    (hf : flags.toNat.testBit 1 = false)
    (hsize : (requestBlock (requestLine me (effectivePath path)) (documentedHeaders cfg.userAgent ho flags.toNat)).length < 2 ^ cfg.sizeBits) :
    ∃ st h' m', HTTPClient_InitializeRequestHeaders cfg m (some h) (some ⟨some me, path, some ho, flags⟩) = .ok (st, some h', m') ∧
      (st = .insufficientMemory ∨ st = .invalidCharacter) := by
  obtain ⟨st, h', m', e, q1, _, _, q4⟩ := C02_init_success_iff (path := path) (flags := flags) hua hbuf hme hho hsize
  refine ⟨st, h', m', e, ?_⟩
  rcases q4 with rfl | q4
  · exact absurd ((q1.mp rfl).2.2 hf) hbad
  · exact q4

/-- **C84, partial.** For every configured value that is not empty and has neither CR nor LF (missing: the others), every call with valid parameters, a host
without CR and LF, and room for the request, succeeds, and the header line `User-Agent: <value>` is the first one after the request line. -/
theorem C84_user_agent_partial (hua : cfg.userAgent ≠ []) (hgood : CleanValue cfg.userAgent) (hbuf : HasBuf m h b) (hme : me ≠ []) (hho : ho ≠ [])
    (hclean : CleanValue ho) (hf : flags.toNat.testBit 1 = false)
    (hfit : (requestBlock (requestLine me (effectivePath path)) (documentedHeaders cfg.userAgent ho flags.toNat)).length ≤ h.bufferLen)
    (hsize : h.bufferLen + h.bufferLen < 2 ^ cfg.sizeBits) :
    ∃ h' m', HTTPClient_InitializeRequestHeaders cfg m (some h) (some ⟨some me, path, some ho, flags⟩) = .ok (.success, some h', m') ∧
      requestLine me (effectivePath path) ++ ascii "User-Agent: " ++ cfg.userAgent ++ crlf <+: headerBlock m' h' := by
  obtain ⟨st, h', m', e, q1, _, _, _⟩ := C02_init_success_iff (path := path) (flags := flags) hua hbuf hme hho (by omega)
  have hst : st = .success := q1.mpr ⟨hfit, hclean, fun _ => hgood⟩
  subst hst
  refine ⟨h', m', e, ?_⟩
  rw [(C01_init_layout hua hbuf (by omega) e).1]
  have ha : ascii "User-Agent: " = ascii "User-Agent" ++ [58, 32] := by decide
  unfold requestBlock documentedHeaders headerLines
  rw [hf]
  simp only [Bool.false_eq_true, if_false, List.cons_append, List.nil_append, List.map_cons, List.flatten_cons, headerLine, ha]
  refine ⟨?w, ?_⟩
  case w => exact (List.map (fun h => h.1 ++ [58, 32] ++ h.2 ++ crlf) ((ascii "Host", ho) :: if flags.toNat.testBit 0 = true then
      [(ascii "Connection", ascii "keep-alive")] else [])).flatten ++ crlf
  simp [List.append_assoc]

/-- The hypotheses are met: the example configuration with an empty value, with a line break, and as it is. -/
example : HTTPClient_InitializeRequestHeaders { exCfg with userAgent := [] } exMem (some exHdr) (some exInfo) = .fault (.assertFail 1363) :=
  C84_refuted_empty rfl exHasBuf (by decide) (by decide) (by decide) (by decide) (by decide)
example : ¬ CleanValue (ascii "a\r\nb") := fun h => absurd (h 13 (by decide)).1 (by decide)
example : ∃ h' m', HTTPClient_InitializeRequestHeaders exCfg exMem (some exHdr) (some exInfo) = .ok (.success, some h', m') ∧
    requestLine (ascii "GET") (effectivePath none) ++ ascii "User-Agent: " ++ exCfg.userAgent ++ crlf <+: headerBlock m' h' :=
  C84_user_agent_partial (by decide) (show CleanValue exCfg.userAgent by decide) exHasBuf (by decide) (by decide) (show CleanValue (ascii "example.com") by decide)
    (by decide) (by decide) (by decide)

end CoreHttp.Props

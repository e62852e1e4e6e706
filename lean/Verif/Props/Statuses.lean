import Verif.Props.Request

/-! # C83: the statuses of the request-building calls

core_http_client.h:605–608 (HTTPClient_InitializeRequestHeaders), 671–675 (HTTPClient_AddHeader) and the comment of HTTPClient_AddRangeHeader list, for each call,
the statuses it returns. -/

namespace CoreHttp.Props
open CoreHttp Spec
variable {cfg : Cfg} {m : Mem} {rh : Option ReqHeaders}

/-- The buffer an object names exists and has the stated length. -/
def BufferExists (m : Mem) (rh : Option ReqHeaders) : Prop := ∀ h b, rh = some h → h.pBuffer = some b → h.bufferLen ≤ (m b).length

/-- **C83, HTTPClient_AddHeader**: for every combination of parameters. -/
theorem C83_addHeader {field value : Option Bytes} (hb : BufferExists m rh)
    (hsize : ∀ h f v, rh = some h → field = some f → value = some v → h.headersLen + f.length + v.length + 6 < 2 ^ cfg.sizeBits) :
    ∃ st rh' m', HTTPClient_AddHeader cfg m rh field value = .ok (st, rh', m') ∧
      (st = .success ∨ st = .invalidParameter ∨ st = .insufficientMemory ∨ st = .invalidCharacter) ∧
      (st = .invalidCharacter → ∃ f v, field = some f ∧ value = some v ∧ ¬ (CleanField f ∧ CleanValue v)) := by
  by_cases hok : AddParamsOk rh field value
  · obtain ⟨⟨h, b, rfl, h1, h2⟩, ⟨f, rfl, h3⟩, ⟨v, rfl, h4⟩⟩ := hok
    obtain ⟨st, h', m', e, h6⟩ := addHeader_full (cfg := cfg) (m := m) ⟨⟨h1, hb h b rfl h1⟩, h2, h3, h4, hsize _ _ _ rfl rfl rfl⟩
    refine ⟨st, some h', m', e, ?_, fun hc => ⟨f, v, rfl, rfl, (h6.2.2.2.2.2.2.2.1.mp hc).2⟩⟩
    rcases h6.2.2.2.2.2.2.2.2.2.2 with rfl | rfl | rfl <;> simp
  · exact ⟨_, _, _, C62_addHeader_invalid hok, by simp, fun h => by cases h⟩

/-- **C83, HTTPClient_AddRangeHeader**: for every combination of parameters; HTTPSecurityAlertInvalidCharacter is never returned. -/
theorem C83_addRange {s e : Int} (hb : BufferExists m rh) (hop : ∀ h, rh = some h → OpOk cfg h.bufferLen (.addRange s e)) :
    ∃ st rh' m', HTTPClient_AddRangeHeader cfg m rh s e = .ok (st, rh', m') ∧
      (st = .success ∨ st = .invalidParameter ∨ st = .insufficientMemory) := by
  by_cases hok : RangeObjectOk rh ∧ ValidRange s e
  · obtain ⟨⟨h, b, rfl, h1, h2⟩, _⟩ := hok
    obtain ⟨st, h', m', e, _, h6, _⟩ := C15_range_accepted_iff ⟨h1, hb h b rfl h1⟩ h2 (hop h rfl)
    exact ⟨st, some h', m', e, by rcases h6 with rfl | rfl | rfl <;> simp⟩
  · exact ⟨_, _, _, C62_addRange_invalid hok, by simp⟩

/-- **C83, HTTPClient_InitializeRequestHeaders** (partial): for every combination of parameters the status is one of the three documented ones, or (missing)
HTTPSecurityAlertInvalidCharacter, and that only when the host, or the configured user agent unless it is left out, has a CR or LF. -/
theorem C83_init_partial {info : Option ReqInfo} (hua : cfg.userAgent ≠ []) (hb : BufferExists m rh)
    (hsize : ∀ i me ho, info = some i → i.pMethod = some me → i.pHost = some ho →
      (requestBlock (requestLine me (effectivePath i.pPath)) (documentedHeaders cfg.userAgent ho i.reqFlags.toNat)).length < 2 ^ cfg.sizeBits) :
    ∃ st rh' m', HTTPClient_InitializeRequestHeaders cfg m rh info = .ok (st, rh', m') ∧
      (st = .success ∨ st = .invalidParameter ∨ st = .insufficientMemory ∨ st = .invalidCharacter) ∧
      (st = .invalidCharacter → ∃ i ho, info = some i ∧ i.pHost = some ho ∧
        ¬ (CleanValue ho ∧ (i.reqFlags.toNat.testBit 1 = false → CleanValue cfg.userAgent))) := by
  by_cases hok : InitParamsOk rh info
  · cases rh with
    | none => obtain ⟨⟨_, _, h, _⟩, _⟩ := hok; cases h
    | some h =>
      cases info with
      | none => obtain ⟨_, _, _, _, h, _⟩ := hok; cases h
      | some i =>
        obtain ⟨⟨_, b, h0, h1⟩, _, me, ho, h0', h3, h4, h5, h6⟩ := hok
        cases h0; cases h0'
        obtain ⟨me', pa, ho', fl⟩ := i
        dsimp only at h3 h5 hsize
        subst h3 h5
        obtain ⟨st, h', m', e, q1, q2, _, q4⟩ := C02_init_success_iff (path := pa) (flags := fl) hua ⟨h1, hb h b rfl h1⟩ h4 h6 (hsize _ me ho rfl rfl rfl)
        refine ⟨st, some h', m', e, by rcases q4 with rfl | rfl | rfl <;> simp, fun hc => ⟨_, ho, rfl, rfl, fun hcl => ?_⟩⟩
        subst hc
        rcases Nat.lt_or_ge h.bufferLen
          (requestBlock (requestLine me (effectivePath pa)) (documentedHeaders cfg.userAgent ho fl.toNat)).length with hlt | hge
        · have := q2 hcl.1 hcl.2 hlt; cases this
        · have := q1.mpr ⟨hge, hcl.1, hcl.2⟩; cases this
  · exact ⟨_, _, _, C62_init_invalid hok, by simp, fun h => by cases h⟩

/-- **C83, refuted.** For every host with a CR or LF for which the request would fit: the status returned is not among those documented for
HTTPClient_InitializeRequestHeaders. -/
theorem C83_refuted {h : ReqHeaders} {b : Nat} {me ho : Bytes} {path : Option Bytes} {flags : UInt32} (hua : cfg.userAgent ≠ []) (hbuf : HasBuf m h b)
    (hme : me ≠ []) (hho : ho ≠ []) (hbad : ¬ CleanValue ho)
    (hsize : h.bufferLen < 2 ^ cfg.sizeBits)
    (hfit : (requestBlock (requestLine me (effectivePath path)) (documentedHeaders cfg.userAgent ho flags.toNat)).length ≤ h.bufferLen) :
    ∃ h' m', HTTPClient_InitializeRequestHeaders cfg m (some h) (some ⟨some me, path, some ho, flags⟩) = .ok (.invalidCharacter, some h', m') := by
  obtain ⟨st, h', m', e, _, _, q3, _⟩ := C02_init_success_iff (path := path) (flags := flags) hua hbuf hme hho (by omega)
  have := q3 (fun hc => hbad hc.1) hfit
  subst this
  exact ⟨h', m', e⟩

/-- The hypotheses of `C83_refuted` and of the other theorems are met. -/
example : ¬ CleanValue (ascii "example.com\r\nX: y") ∧
    (requestBlock (requestLine (ascii "GET") (effectivePath none)) (documentedHeaders exCfg.userAgent (ascii "example.com\r\nX: y") (0 : UInt32).toNat)).length ≤
      exHdr.bufferLen ∧ HasBuf exMem exHdr 0 := by
  refine ⟨fun h => ?_, by decide, exHasBuf⟩
  exact absurd (h 13 (by decide)).1 (by decide)
example : BufferExists exMem (some exHdr) ∧ OpOk exCfg exHdr.bufferLen (.addRange 0 100) := by
  refine ⟨fun h b h1 h2 => ?_, by decide, by decide⟩
  cases h1; cases h2; exact exHasBuf.2

end CoreHttp.Props

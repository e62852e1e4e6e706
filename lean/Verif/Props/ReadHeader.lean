import Verif.Lemmas.ReadHeaderTop
import Verif.Props.ReceiveEx

/-!
# Properties C53–C57: HTTPClient_ReadHeader and HTTPClient_strerror

`readAll` is what the parser reports for the response buffer in one piece (answering "no body" at the end of a header section, as the library does; the
parser then goes on with what it takes for the next message), `headerSection` the part of it before the end of the first header section, `allHeaders` the
headers of a list of events.
-/

namespace CoreHttp.Props
open CoreHttp Spec Ref
variable {σ : Type} {P : Parser} {strict : Bool} {resp : Resp σ} {b : Nat} {name : Bytes}

theorem first_has {hs : List (Bytes × Bytes × Nat)} {v : Bytes} (h : FirstNamed name hs v) : HasName name hs := by
  obtain ⟨pre, f, c, post, h3, h4, _⟩ := h
  exact ⟨(f, v, c), by rw [h3]; simp, h4⟩

open Classical in
/-- Everything about a lookup with a strict parser. -/
theorem readHeader_spec {w : World PLog σ} (hp : ReadPre true P resp b name w.mem) (l : Option Nat) (n : Nat) :
    ∃ st l' n' w', HTTPClient_ReadHeader P (some resp) (some name) (some l) (some n) w = (.ok (st, some l', some n'), w') ∧
      ((st = .success ∧ ∃ v, FirstNamed name (allHeaders (readAll P ((w.mem b).take resp.bufferLen)).1) v ∧ Delimits (w.mem b) resp.bufferLen l' n' v) ∨
       (st = (if ¬ EndsInField name (readAll P ((w.mem b).take resp.bufferLen)).1 ∧ (readAll P ((w.mem b).take resp.bufferLen)).2 = .ok
          then .headerNotFound else .invalidResponse) ∧
        ¬ HasName name (allHeaders (readAll P ((w.mem b).take resp.bufferLen)).1) ∧ l' = l ∧ n' = n)) := by
  classical
  obtain ⟨st, l', n', log', e, h⟩ := readHeader_run hp l n
  refine ⟨st, l', n', _, e, ?_⟩
  have hv := scan_view (name := name) _ _ _ _ _ false rfl lookInit (readAll_chain hp.parser ((w.mem b).take resp.bufferLen)) (by simp [dangling, View.empty])
  generalize (readAll P ((w.mem b).take resp.bufferLen)) = ra at h hv ⊢
  obtain ⟨os, er⟩ := ra
  dsimp only at h hv ⊢
  generalize scan name false os = sc at h hv
  obtain ⟨ff, so⟩ := sc
  cases so with
  | some o =>
    obtain ⟨rfl, rfl, rfl, h4, h5⟩ := h
    obtain ⟨mid, f, c, post, h6, h7, h8⟩ := hv
    refine .inl ⟨rfl, o.data, ⟨mid, f, c, post, ?_, h7, h8⟩, rfl, fun h => by simp [h], fun h => ⟨o.loc, by simp [h], h4, ?_⟩⟩
    · exact h6.trans (by simp [View.flush, View.empty])
    · unfold slice at h5
      rw [List.drop_take, List.take_take, Nat.min_eq_left (by omega)] at h5
      exact h5
  | none =>
    obtain ⟨rfl, rfl, rfl⟩ := h
    obtain ⟨h1, mid, h6, h8⟩ := hv
    refine .inr ⟨?_, ?_, rfl, rfl⟩
    · have : (ff = false) ↔ ¬ EndsInField name os := by
        rw [← Bool.not_eq_true, h1]; rfl
      by_cases hc : ff = false ∧ er = .ok
      · rw [if_pos hc, if_pos ⟨this.mp hc.1, hc.2⟩]
      · rw [if_neg hc, if_neg (fun h => hc ⟨this.mpr h.1, h.2⟩)]
    · rintro ⟨x, hx, hs⟩
      have h9 : allHeaders os = mid := h6.trans (by simp [View.flush, View.empty])
      rw [h9] at hx
      exact h8 x hx hs

/-- **C53** (partial): HTTPSuccess means that the outputs delimit the value of the first header with this name, ignoring letter case, among the headers the parser
reports for the buffer; and if the header section has a header with this name, then the first such header is found. What is missing: the header found may
lie after the header section (`C53_refuted`). -/
theorem C53_partial {w : World PLog σ} (hp : ReadPre true P resp b name w.mem) (l : Option Nat) (n : Nat) :
    ∃ st l' n' w', HTTPClient_ReadHeader P (some resp) (some name) (some l) (some n) w = (.ok (st, some l', some n'), w') ∧
      (st = .success → ∃ v, FirstNamed name (allHeaders (readAll P ((w.mem b).take resp.bufferLen)).1) v ∧ Delimits (w.mem b) resp.bufferLen l' n' v) ∧
      (∀ v, FirstNamed name (allHeaders (headerSection (readAll P ((w.mem b).take resp.bufferLen)).1)) v →
        st = .success ∧ Delimits (w.mem b) resp.bufferLen l' n' v) := by
  obtain ⟨st, l', n', w', e, h⟩ := readHeader_spec hp l n
  refine ⟨st, l', n', w', e, ?_, ?_⟩
  · intro hs
    rcases h with ⟨_, h⟩ | ⟨h, _⟩
    · exact h
    · rw [hs] at h
      split at h <;> cases h
  · intro v hv
    have hv2 := first_mono hv (section_prefix hp.parser _)
    rcases h with ⟨rfl, v', h1, h2⟩ | ⟨_, h, _⟩
    · rw [first_unique hv2 h1]; exact ⟨rfl, h2⟩
    · exact absurd (first_has hv2) h

/-- **C53** for a buffer that ends where the header section ends: HTTPSuccess exactly if the header section has a header with this name, and the outputs
delimit the value of the first such header. -/
theorem C53_headers_only {w : World PLog σ} (hp : ReadPre true P resp b name w.mem) (l : Option Nat) (n : Nat)
    (hend : sectionEnd (readAll P ((w.mem b).take resp.bufferLen)).1 = some resp.bufferLen) :
    ∃ st l' n' w', HTTPClient_ReadHeader P (some resp) (some name) (some l) (some n) w = (.ok (st, some l', some n'), w') ∧
      (st = .success ↔ HasName name (allHeaders (headerSection (readAll P ((w.mem b).take resp.bufferLen)).1))) ∧
      (st = .success → ∃ v, FirstNamed name (allHeaders (headerSection (readAll P ((w.mem b).take resp.bufferLen)).1)) v ∧
        Delimits (w.mem b) resp.bufferLen l' n' v) := by
  obtain ⟨st, l', n', w', e, h1, h2⟩ := C53_partial hp l n
  have hlen : ((w.mem b).take resp.bufferLen).length = resp.bufferLen := by rw [List.length_take]; have := hp.room; omega
  have hall := (section_all hp.parser (by rw [hlen]; exact hp.pos) (by rw [hlen]; exact hend)).1
  rw [hall] at h1
  refine ⟨st, l', n', w', e, ⟨fun hs => ?_, fun hs => ?_⟩, h1⟩
  · obtain ⟨v, hv, _⟩ := h1 hs
    exact first_has hv
  · obtain ⟨v, hv⟩ := first_exists hs
    exact (h2 v hv).1

/-- **C54** (partial): HTTPHeaderNotFound exactly if the parser accepts the whole buffer and reports no header with this name (and the buffer does not end after
a field with this name); HTTPInvalidResponse exactly if no header with this name is found and the parser rejects the buffer or the buffer ends after a
field with this name; there is no other failure, and the outputs are then unchanged. What is missing: the parser also reads what follows the header section
(`C54_refuted`). -/
theorem C54_partial {w : World PLog σ} (hp : ReadPre true P resp b name w.mem) (l : Option Nat) (n : Nat) :
    ∃ st l' n' w', HTTPClient_ReadHeader P (some resp) (some name) (some l) (some n) w = (.ok (st, some l', some n'), w') ∧
      (st = .headerNotFound ↔ ¬ HasName name (allHeaders (readAll P ((w.mem b).take resp.bufferLen)).1) ∧
        (readAll P ((w.mem b).take resp.bufferLen)).2 = .ok ∧ ¬ EndsInField name (readAll P ((w.mem b).take resp.bufferLen)).1) ∧
      (st = .invalidResponse ↔ ¬ HasName name (allHeaders (readAll P ((w.mem b).take resp.bufferLen)).1) ∧
        ((readAll P ((w.mem b).take resp.bufferLen)).2 ≠ .ok ∨ EndsInField name (readAll P ((w.mem b).take resp.bufferLen)).1)) ∧
      (st = .success ∨ st = .headerNotFound ∨ st = .invalidResponse) ∧
      (st ≠ .success → l' = l ∧ n' = n) := by
  obtain ⟨st, l', n', w', e, h⟩ := readHeader_spec hp l n
  refine ⟨st, l', n', w', e, ?_⟩
  rcases h with ⟨rfl, v, hv, _⟩ | ⟨rfl, h2, rfl, rfl⟩
  · have hh : HasName name (allHeaders (readAll P ((w.mem b).take resp.bufferLen)).1) := first_has hv
    simp [hh]
  · by_cases hc : ¬ EndsInField name (readAll P ((w.mem b).take resp.bufferLen)).1 ∧ (readAll P ((w.mem b).take resp.bufferLen)).2 = .ok
    · rw [if_pos hc]
      simp [hc.1, hc.2, h2]
    · rw [if_neg hc]
      refine ⟨⟨nofun, fun h => absurd ⟨h.2.2, h.2.1⟩ hc⟩, ⟨fun _ => ⟨h2, ?_⟩, fun _ => rfl⟩, .inr (.inr rfl), fun _ => ⟨rfl, rfl⟩⟩
      by_cases h9 : EndsInField name (readAll P ((w.mem b).take resp.bufferLen)).1
      · exact .inr h9
      · exact .inl fun h10 => hc ⟨h9, h10⟩

/-- **C54** for a buffer that ends where the header section ends and that the parser accepts: HTTPHeaderNotFound exactly if no header has this name. -/
theorem C54_headers_only {w : World PLog σ} (hp : ReadPre true P resp b name w.mem) (l : Option Nat) (n : Nat)
    (hend : sectionEnd (readAll P ((w.mem b).take resp.bufferLen)).1 = some resp.bufferLen)
    (hok : (readAll P ((w.mem b).take resp.bufferLen)).2 = .ok) :
    ∃ st l' n' w', HTTPClient_ReadHeader P (some resp) (some name) (some l) (some n) w = (.ok (st, some l', some n'), w') ∧
      (st = .headerNotFound ↔ ¬ HasName name (allHeaders (headerSection (readAll P ((w.mem b).take resp.bufferLen)).1))) ∧
      (st ≠ .headerNotFound → st = .success) ∧ (st ≠ .success → l' = l ∧ n' = n) := by
  obtain ⟨st, l', n', w', e, h1, h2, h3, h4⟩ := C54_partial hp l n
  have hlen : ((w.mem b).take resp.bufferLen).length = resp.bufferLen := by rw [List.length_take]; have := hp.room; omega
  have hall := section_all hp.parser (by rw [hlen]; exact hp.pos) (by rw [hlen]; exact hend)
  have hnf : ¬ EndsInField name (readAll P ((w.mem b).take resp.bufferLen)).1 := by
    rintro ⟨f, hf, _⟩
    rw [hall.2] at hf; cases hf
  rw [hall.1] at h1 h2
  refine ⟨st, l', n', w', e, ?_, ?_, h4⟩
  · rw [h1]; exact ⟨fun h => h.1, fun h => ⟨h, hok, hnf⟩⟩
  · intro hne
    rcases h3 with h3 | h3 | h3
    · exact h3
    · exact absurd h3 hne
    · rcases (h2.mp h3).2 with h5 | h5
      · exact absurd hok h5
      · exact absurd h5 hnf

/-- The last event of a run of the parser is its return. -/
theorem runTree_last {S H : Type} (base : Nat) (data : Bytes) (handle : PEv → H → M PLog σ (CbRet × H)) (t : PTree S) : ∀ (h : H) (w : World PLog σ)
    {er ep s h' w'}, runTree b base data handle t h w = (.ok (er, ep, s, h'), w') → ∃ pre, w'.log = pre ++ [.parserEvent (.ret er ep)] := by
  induction t with
  | done er ep s =>
    intro h w er' ep' s' h' w' e
    simp only [runTree, M.bind_apply, M.emit_apply, M.pure_apply, Prod.mk.injEq, Run.ok.injEq] at e
    obtain ⟨⟨rfl, rfl, rfl, rfl⟩, rfl⟩ := e
    exact ⟨w.log, rfl⟩
  | call ev k ih =>
    intro h w er' ep' s' h' w' e
    simp only [runTree, M.bind_apply, M.emit_apply, M.world_apply] at e
    rcases hx : handle ev h { w with log := w.log ++ [.parserEvent (.obs (ev.observe base data))] } with ⟨r, w1⟩
    rw [hx] at e
    cases r with
    | ok r => exact ih _ _ _ e
    | fault f => cases e
    | more => cases e

/-- **C54** with any parser at all, also one that breaks its contract: a lookup that returns ends with a return of the parser, and then: success only if the parser
stopped because the library told it to (HPE_USER); HTTPParserInternalError only if it did not; "not found" only if the parser accepted everything (HPE_OK).
No other status than these and HTTPInvalidResponse is returned. -/
theorem C54_any_parser {w w' : World PLog σ} {st : Status} {l l' : Option (Option Nat)} {n n' : Option Nat} (hb : resp.pBuffer = some b)
    (hlen : resp.bufferLen ≠ 0) (hname : name ≠ []) (hl : l ≠ none) (hn : n ≠ none)
    (h : HTTPClient_ReadHeader P (some resp) (some name) l n w = (.ok (st, l', n'), w')) :
    ∃ pre er ep, w'.log = pre ++ [.parserEvent (.ret er ep)] ∧
      (st = .success ∨ st = .headerNotFound ∨ st = .invalidResponse ∨ st = .parserInternalError) ∧
      (st = .success → er = .user) ∧ (st = .parserInternalError → er ≠ .user) ∧ (st = .headerNotFound → er = .ok) := by
  cases l with
  | none => exact absurd rfl hl
  | some l =>
  cases n with
  | none => exact absurd rfl hn
  | some n =>
  have h1 : name.length ≠ 0 := by simpa using hname
  simp only [HTTPClient_ReadHeader, hb, if_neg hlen, if_neg h1, findHeaderInResponse, M.bind_apply, M.world_apply, M.ofRun_apply, M.emit_apply] at h
  rcases hx : memRead (w.mem b) 0 resp.bufferLen with data | f | _ <;> rw [hx] at h <;> try (cases h; done)
  simp only at h
  rcases hr : runTree b 0 data (findCallback b 0 name) (P.exec P.init data) ⟨false, false, l, n⟩ { w with log := w.log ++ [.parserCall 0 data] }
    with ⟨r, w1⟩
  rw [hr] at h
  rcases r with ⟨er, ep, s, c⟩ | f | _ <;> try (cases h; done)
  obtain ⟨pre, hpre⟩ := runTree_last _ _ _ _ _ _ hr
  obtain ⟨ff, vf, vl, vn⟩ := c
  cases ff <;> cases vf <;> simp only [mAssert, cAssert, M.ofRun_apply, M.bind_apply, M.pure_apply, Bool.not_true, Bool.not_false, Bool.and_true, if_true,
    if_false, Prod.mk.injEq, Run.ok.injEq, Bool.true_eq_false, Bool.false_eq_true, reduceCtorEq, false_and, true_and, Bool.and_self] at h
  · obtain ⟨⟨rfl, _⟩, rfl⟩ := h
    refine ⟨pre, er, ep, hpre, ?_⟩
    by_cases he : er = .ok <;> simp [he]
  · obtain ⟨⟨rfl, _⟩, rfl⟩ := h
    exact ⟨pre, er, ep, hpre, by simp⟩
  · obtain ⟨⟨rfl, _⟩, rfl⟩ := h
    refine ⟨pre, er, ep, hpre, ?_⟩
    by_cases he : er = .user <;> simp [he]

/-- A parser that goes on although the library told it to stop. -/
def rudeParser : Parser := ⟨Unit, (), fun _ _ => .call (.headerField 0 1) fun _ => .call (.headerValue 3 1) fun _ => .done .ok 0 (), id⟩

/-- `C54_any_parser` is about real runs: the lookup returns, with HTTPParserInternalError. -/
example : (match (HTTPClient_ReadHeader rudeParser (some (exResp 6 0)) (some (ascii "a")) (some none) (some 0)
      (⟨(0, []), fun _ => ascii "A: b\r\n", []⟩ : World PLog Script)).1 with
    | .ok (st, _, _) => some st
    | _ => none) = some .parserInternalError := by decide +kernel

/-- **C55**: with any contract-abiding parser (folded header lines included) a lookup returns, without a fault (assertion, access outside a buffer), having
changed no memory; a location it reports lies in the buffer. -/
theorem C55_safe {w : World PLog σ} (hp : ReadPre strict P resp b name w.mem) (l : Option Nat) (n : Nat) :
    ∃ st l' n' w', HTTPClient_ReadHeader P (some resp) (some name) (some l) (some n) w = (.ok (st, some l', some n'), w') ∧ w'.mem = w.mem ∧ w'.env = w.env ∧
      (st = .success → ∀ a, l' = some a → 0 < n' ∧ a + n' ≤ resp.bufferLen) ∧ (st = .success → l' = none → n' = 0) ∧
      (st ≠ .success → l' = l ∧ n' = n) := by
  classical
  obtain ⟨st, l', n', log', e, h⟩ := readHeader_run hp l n
  refine ⟨st, l', n', _, e, rfl, rfl, ?_⟩
  generalize scan name false (readAll P ((w.mem b).take resp.bufferLen)).1 = sc at h
  obtain ⟨ff, so⟩ := sc
  cases so with
  | some o =>
    obtain ⟨rfl, rfl, rfl, h4, h5⟩ := h
    by_cases ho : o.data = []
    · simp [ho]
    · have := List.length_pos_iff.mpr ho
      simp only [if_neg ho]
      refine ⟨fun _ a ha => ?_, (by simp), fun h => absurd rfl h⟩
      cases ha
      exact ⟨this, h4⟩
  | none =>
    obtain ⟨rfl, rfl, rfl⟩ := h
    refine ⟨?_, ?_, fun _ => ⟨rfl, rfl⟩⟩ <;>
    · intro h
      split at h <;> cases h

/-- **C55**: invalid parameters give HTTPInvalidParameter, and nothing happens. -/
theorem C55_invalid (pResponse : Option (Resp σ)) (pField : Option Bytes) (pValueLoc : Option (Option Nat)) (pValueLen : Option Nat) (w : World PLog σ)
    (h : pResponse = none ∨ (∃ r, pResponse = some r ∧ (r.pBuffer = none ∨ r.bufferLen = 0)) ∨ pField = none ∨ pField = some [] ∨
      pValueLoc = none ∨ pValueLen = none) :
    HTTPClient_ReadHeader P pResponse pField pValueLoc pValueLen w = (.ok (.invalidParameter, pValueLoc, pValueLen), w) := by
  unfold HTTPClient_ReadHeader
  rcases pResponse with _ | r
  · rfl
  · rcases hb : r.pBuffer with _ | b <;> simp only [hb]
    · rfl
    · by_cases hl : r.bufferLen = 0
      · rw [if_pos hl]; rfl
      · rw [if_neg hl]
        rcases pField with _ | f
        · rfl
        · by_cases hf : f.length = 0
          · simp only [if_pos hf]; rfl
          · simp only [if_neg hf]
            rcases pValueLoc with _ | l
            · rfl
            · rcases pValueLen with _ | n
              · rfl
              · exfalso
                rcases h with h | ⟨r', h, h2⟩ | h | h | h | h
                · cases h
                · cases h
                  rcases h2 with h2 | h2
                  · rw [hb] at h2; cases h2
                  · exact hl h2
                · cases h
                · cases h; exact hf rfl
                · cases h
                · cases h

/-- **C56**: names of equal length compare equal exactly if they are the same up to the case of ASCII letters. -/
theorem C56_compare (s t : Bytes) (n : Nat) (hs : s.length = n) (ht : t.length = n) :
    (∃ r, caseInsensitiveStringCmp s t n = .ok r) ∧ (caseInsensitiveStringCmp s t n = .ok 0 ↔ sameName s t) := by
  classical
  rw [caseCmp_spec s t n hs ht]
  refine ⟨⟨_, rfl⟩, ?_⟩
  by_cases h : sameName s t
  · simp [h]
  · simp [h]

/-- **C56**: "the same up to the case of ASCII letters" is an equivalence. -/
theorem C56_equivalence : (∀ s, sameName s s) ∧ (∀ s t, sameName s t → sameName t s) ∧ (∀ s t u, sameName s t → sameName t u → sameName s u) := by
  refine ⟨fun s => ⟨rfl, fun i a b ha hb => ?_⟩, fun s t h => ⟨h.1.symm, fun i a b ha hb => sameLetter_symm (h.2 i b a hb ha)⟩,
    fun s t u h1 h2 => ⟨h1.1.trans h2.1, fun i a b ha hb => ?_⟩⟩
  · rw [ha] at hb; cases hb; exact sameLetter_refl a
  · have hi : i < t.length := by
      have := (List.getElem?_eq_some_iff.mp ha).1
      have := h1.1
      omega
    exact sameLetter_trans (h1.2 i a t[i] ha (List.getElem?_eq_getElem hi)) (h2.2 i t[i] b (List.getElem?_eq_getElem hi) hb)

/-- **C56**: a byte that is not an ASCII letter (e.g. '@', '[', '`', '{' or a byte from 0x80 on) is only the same as itself. -/
theorem C56_nonletters (a b : UInt8) (h : ¬ (65 ≤ a.toNat ∧ a.toNat ≤ 90)) (h' : ¬ (97 ≤ a.toNat ∧ a.toNat ≤ 122)) : sameLetter a b ↔ a = b := by
  unfold sameLetter
  constructor
  · rintro (h1 | h1 | h1)
    · exact h1
    · omega
    · omega
  · exact .inl

/-- The names of the enumerators of HTTPStatus_t in order, core_http_client.h:195-351. -/
def statusNames : List String :=
  ["HTTPSuccess", "HTTPInvalidParameter", "HTTPNetworkError", "HTTPPartialResponse", "HTTPNoResponse", "HTTPInsufficientMemory",
   "HTTPSecurityAlertExtraneousResponseData", "HTTPSecurityAlertInvalidChunkHeader", "HTTPSecurityAlertInvalidProtocolVersion",
   "HTTPSecurityAlertInvalidStatusCode", "HTTPSecurityAlertInvalidCharacter", "HTTPSecurityAlertInvalidContentLength", "HTTPParserPaused",
   "HTTPParserInternalError", "HTTPHeaderNotFound", "HTTPInvalidResponse"]

/-- **C57**: HTTPClient_strerror gives the name of the enumerator for the values 0 to 15 and NULL for every other integer. -/
theorem C57_names (i : Int) :
    HTTPClient_strerror i = if 0 ≤ i then statusNames[i.toNat]? else none := by
  unfold HTTPClient_strerror
  by_cases h0 : 0 ≤ i
  · rw [if_pos h0]
    obtain ⟨k, rfl⟩ := Int.eq_ofNat_of_zero_le h0
    by_cases hk : k < 16
    · have : k = 0 ∨ k = 1 ∨ k = 2 ∨ k = 3 ∨ k = 4 ∨ k = 5 ∨ k = 6 ∨ k = 7 ∨ k = 8 ∨ k = 9 ∨ k = 10 ∨ k = 11 ∨ k = 12 ∨ k = 13 ∨ k = 14 ∨ k = 15 := by omega
      rcases this with rfl | rfl | rfl | rfl | rfl | rfl | rfl | rfl | rfl | rfl | rfl | rfl | rfl | rfl | rfl | rfl <;> rfl
    · have hnone : statusNames[k]? = none := List.getElem?_eq_none (by simp [statusNames]; omega)
      rw [Int.toNat_natCast, hnone]
      rw [if_neg (show ¬ (k : Int) = Status.success.code by simp only [Status.code]; omega), if_neg (show ¬ (k : Int) = Status.invalidParameter.code by simp only [Status.code]; omega), if_neg (show ¬ (k : Int) = Status.networkError.code by simp only [Status.code]; omega), if_neg (show ¬ (k : Int) = Status.partialResponse.code by simp only [Status.code]; omega), if_neg (show ¬ (k : Int) = Status.noResponse.code by simp only [Status.code]; omega), if_neg (show ¬ (k : Int) = Status.insufficientMemory.code by simp only [Status.code]; omega),
        if_neg (show ¬ (k : Int) = Status.extraneousResponseData.code by simp only [Status.code]; omega), if_neg (show ¬ (k : Int) = Status.invalidChunkHeader.code by simp only [Status.code]; omega), if_neg (show ¬ (k : Int) = Status.invalidProtocolVersion.code by simp only [Status.code]; omega), if_neg (show ¬ (k : Int) = Status.invalidStatusCode.code by simp only [Status.code]; omega), if_neg (show ¬ (k : Int) = Status.invalidCharacter.code by simp only [Status.code]; omega),
        if_neg (show ¬ (k : Int) = Status.invalidContentLength.code by simp only [Status.code]; omega), if_neg (show ¬ (k : Int) = Status.parserPaused.code by simp only [Status.code]; omega), if_neg (show ¬ (k : Int) = Status.parserInternalError.code by simp only [Status.code]; omega), if_neg (show ¬ (k : Int) = Status.headerNotFound.code by simp only [Status.code]; omega), if_neg (show ¬ (k : Int) = Status.invalidResponse.code by simp only [Status.code]; omega)]
  · rw [if_neg h0]
    rw [if_neg (show ¬ i = Status.success.code by simp only [Status.code]; omega), if_neg (show ¬ i = Status.invalidParameter.code by simp only [Status.code]; omega), if_neg (show ¬ i = Status.networkError.code by simp only [Status.code]; omega), if_neg (show ¬ i = Status.partialResponse.code by simp only [Status.code]; omega), if_neg (show ¬ i = Status.noResponse.code by simp only [Status.code]; omega), if_neg (show ¬ i = Status.insufficientMemory.code by simp only [Status.code]; omega), if_neg (show ¬ i = Status.extraneousResponseData.code by simp only [Status.code]; omega), if_neg (show ¬ i = Status.invalidChunkHeader.code by simp only [Status.code]; omega),
      if_neg (show ¬ i = Status.invalidProtocolVersion.code by simp only [Status.code]; omega), if_neg (show ¬ i = Status.invalidStatusCode.code by simp only [Status.code]; omega), if_neg (show ¬ i = Status.invalidCharacter.code by simp only [Status.code]; omega), if_neg (show ¬ i = Status.invalidContentLength.code by simp only [Status.code]; omega), if_neg (show ¬ i = Status.parserPaused.code by simp only [Status.code]; omega), if_neg (show ¬ i = Status.parserInternalError.code by simp only [Status.code]; omega), if_neg (show ¬ i = Status.headerNotFound.code by simp only [Status.code]; omega), if_neg (show ¬ i = Status.invalidResponse.code by simp only [Status.code]; omega)]

/-- **C57**: every status has a name, and different integers with names have different names. -/
theorem C57_injective : (∀ st : Status, (HTTPClient_strerror st.code).isSome) ∧
    (∀ i j : Int, ∀ s, HTTPClient_strerror i = some s → HTTPClient_strerror j = some s → i = j) := by
  refine ⟨fun st => by cases st <;> rfl, ?_⟩
  intro i j s hi hj
  have hd : ∀ a b : Fin 16, statusNames[a.val]? = statusNames[b.val]? → a = b := by decide +kernel
  rw [C57_names] at hi hj
  by_cases h1 : 0 ≤ i
  · by_cases h2 : 0 ≤ j
    · rw [if_pos h1] at hi
      rw [if_pos h2] at hj
      obtain ⟨a1, a2⟩ := List.getElem?_eq_some_iff.mp hi
      obtain ⟨b1, b2⟩ := List.getElem?_eq_some_iff.mp hj
      have hl : statusNames.length = 16 := rfl
      have := hd ⟨i.toNat, by omega⟩ ⟨j.toNat, by omega⟩ (hi.trans hj.symm)
      have := congrArg Fin.val this
      dsimp only at this
      omega
    · rw [if_neg h2] at hj; cases hj
  · rw [if_neg h1] at hi; cases hi

/-! ## Concrete lookups -/

/-- A response buffer in block 1. -/
def hdMem (resp : Bytes) : Mem := fun i => if i = 1 then resp else []
/-- Look up `name` in a buffer with these bytes; the outputs hold 7 and 9 before. -/
def hdRun (resp name : Bytes) : Run (Status × Option (Option Nat) × Option Nat) :=
  (HTTPClient_ReadHeader httpParser (some (exResp resp.length 0)) (some name) (some (some 7)) (some 9) ⟨(0, []), hdMem resp, []⟩).1

theorem hdPre (resp name : Bytes) (h1 : 0 < resp.length) (h2 : 0 < name.length) :
    ReadPre true httpParser (exResp resp.length 0) 1 name (hdMem resp) where
  parser := httpParser_ok
  buf := rfl
  pos := h1
  room := by simp [hdMem, exResp]
  name := h2

/-- "HTTP/1.1 200 OK", "Server: a", "x-y: one", "X-Y: two", "E:", without a body. -/
def hdResp : Bytes := ascii "HTTP/1.1 200 OK\r\nServer: a\r\nx-y: one\r\nX-Y: two\r\nE:\r\n\r\n"

/-- The first of two headers with the name; the hypotheses of C53–C55 hold, and so do those of the parts. -/
example : ReadPre true httpParser (exResp hdResp.length 0) 1 (ascii "X-y") (hdMem hdResp) ∧
    FirstNamed (ascii "X-y") [(ascii "Server", ascii "a", 200), (ascii "x-y", ascii "one", 200), (ascii "X-Y", ascii "two", 200), (ascii "E", [], 200)]
      (ascii "one") ∧
    allHeaders (headerSection (readAll httpParser hdResp).1) =
      [(ascii "Server", ascii "a", 200), (ascii "x-y", ascii "one", 200), (ascii "X-Y", ascii "two", 200), (ascii "E", [], 200)] := by
  refine ⟨hdPre _ _ (by decide +kernel) (by decide +kernel), ⟨[(ascii "Server", ascii "a", 200)], ascii "x-y", 200, _, rfl, ?_, ?_⟩, by decide +kernel⟩
  · have := (C56_compare (ascii "X-y") (ascii "x-y") 3 (by decide +kernel) (by decide +kernel)).2
    exact this.mp (by decide +kernel)
  · intro x hx
    obtain rfl : x = _ := List.mem_singleton.mp hx
    exact fun h => absurd h.1 (by decide +kernel)
example : hdRun hdResp (ascii "X-y") = .ok (.success, some (some 33), some 3) := by decide +kernel
/-- An empty value. -/
example : hdRun hdResp (ascii "e") = .ok (.success, some none, some 0) := by decide +kernel
/-- No such header. -/
example : hdRun hdResp (ascii "X") = .ok (.headerNotFound, some (some 7), some 9) := by decide +kernel
/-- The hypotheses of C53_headers_only and C54_headers_only. -/
example : sectionEnd (readAll httpParser hdResp).1 = some hdResp.length ∧ (readAll httpParser hdResp).2 = .ok := by decide +kernel

/-- A response the parser accepts, with a body. -/
def hdBody : Bytes := ascii "HTTP/1.1 200 OK\r\nContent-Length: 5\r\n\r\nhello"

/-- **C54** is false: the response is complete and valid and has no header "X", and the lookup gives HTTPInvalidResponse (the parser reads the body as
the next status line). -/
theorem C54_refuted : (feedAll httpParser (answers .continue_) [hdBody]).2.2.2 = .ok ∧ (view (feedAll httpParser (answers .continue_) [hdBody]).1).state = .complete ∧
    hdRun hdBody (ascii "X") = .ok (.invalidResponse, some (some 7), some 9) := by decide +kernel

/-- A response whose body looks like a response with a header "X". -/
def hdFake : Bytes := ascii "HTTP/1.1 200 OK\r\nContent-Length: 25\r\n\r\nHTTP/1.1 200 OK\r\nX: y\r\n\r\n"

/-- **C53** is false: the response is valid and its only header is Content-Length, and the lookup of "X" succeeds, with a location in the body. -/
theorem C53_refuted : (feedAll httpParser (answers .continue_) [hdFake]).2.2.2 = .ok ∧ (view (feedAll httpParser (answers .continue_) [hdFake]).1).messages = 1 ∧
    allHeaders (feedAll httpParser (answers .continue_) [hdFake]).1 = [(ascii "Content-Length", ascii "25", 200)] ∧
    hdRun hdFake (ascii "X") = .ok (.success, some (some 59), some 1) := by decide +kernel

end CoreHttp.Props

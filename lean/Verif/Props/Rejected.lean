import Verif.Spec.Rejected
import Verif.Props.Request
import Verif.Props.Send

/-! # C78: what happens to a request after a header was rejected -/

namespace CoreHttp.Props
open CoreHttp Spec
variable {π σ : Type}

theorem cleanPrefix_eq (v : Bytes) : v.takeWhile (okByte false) = cleanPrefix v := by
  unfold cleanPrefix
  congr 1
  funext c
  by_cases h1 : c = 13 <;> by_cases h2 : c = 10 <;> simp [okByte, CR, LF, h1, h2]

theorem cleanFieldPrefix_eq (v : Bytes) : v.takeWhile (okByte true) = cleanFieldPrefix v := by
  unfold cleanFieldPrefix
  congr 1
  funext c
  by_cases h1 : c = 13 <;> by_cases h2 : c = 10 <;> by_cases h3 : c = 58 <;> simp [okByte, CR, LF, COLON, h1, h2, h3]

theorem take_two (wr rest : Bytes) : (wr ++ (crlf ++ rest).drop wr.length).take 2 = (wr ++ crlf.drop wr.length).take 2 := by
  match wr with
  | [] => simp [crlf]
  | [a] => simp [crlf]
  | a :: b :: t => simp

theorem block_overwritten {m : Mem} {h : ReqHeaders} {b : Nat} (hb : h.pBuffer = some b) (hl : h.headersLen ≤ (m b).length) (wr : Bytes) :
    headerBlock (m.set b (splice (m b) (kept (m b) h.headersLen) wr)) h = overwritten (headerBlock m h) wr := by
  have hk := kept_le (m b) h.headersLen
  simp only [headerBlock, hb, Mem.set_same, overwritten]
  by_cases hs : crlf ++ crlf <:+ (m b).take h.headersLen
  · rw [if_pos hs]
    have h4 : 4 ≤ h.headersLen := by
      have := hs.length_le
      simp only [List.length_append, len_crlf, List.length_take] at this
      omega
    have hkk : kept (m b) h.headersLen = h.headersLen - 2 := by
      unfold kept stripBlankLine
      rw [if_pos hs]; simp only [List.length_take]; omega
    have hst : stripBlankLine ((m b).take h.headersLen) = (m b).take (h.headersLen - 2) := by rw [stripBlankLine_take, hkk]
    rw [hst, hkk]
    obtain ⟨pre, hpre⟩ := hs
    have hdrop : (m b).drop (h.headersLen - 2) = crlf ++ (m b).drop h.headersLen := by
      have hlen : pre.length + 4 = h.headersLen := by
        have := congrArg List.length hpre
        simp only [List.length_append, len_crlf, List.length_take] at this
        omega
      have : m b = (pre ++ crlf) ++ (crlf ++ (m b).drop h.headersLen) := by
        conv => lhs; rw [← List.take_append_drop h.headersLen (m b), ← hpre]
        simp [List.append_assoc]
      conv => lhs; rw [this]
      rw [List.drop_append_of_le_length (by simp only [List.length_append, len_crlf]; omega), List.drop_of_length_le, List.nil_append]
      simp only [List.length_append, len_crlf]; omega
    unfold splice
    rw [List.append_assoc, List.take_append, List.length_take, ← List.drop_drop, hdrop,
      show h.headersLen - min (h.headersLen - 2) (m b).length = 2 by omega, take_two]
    congr 1
    rw [List.take_take]; congr 1; omega
  · rw [if_neg hs]
    have hkk : kept (m b) h.headersLen = h.headersLen := by
      unfold kept stripBlankLine
      rw [if_neg hs]; simp only [List.length_take]; omega
    rw [hkk, take_splice_le (by omega) (Nat.le_refl _)]

/-- **C09, exactly what a rejection leaves.** When AddHeader returns HTTPSecurityAlertInvalidCharacter, the object is the same, and the header block
is the old one in which the part of the line before the bad byte has overwritten the final blank line. -/
theorem C09_failed_add_exact {cfg : Cfg} {m m' : Mem} {h h' : ReqHeaders} {b : Nat} {f v : Bytes} (pre : AddPre cfg m h b f v)
    (hrun : HTTPClient_AddHeader cfg m (some h) (some f) (some v) = .ok (.invalidCharacter, some h', m')) :
    h' = h ∧ headerBlock m' h' = overwritten (headerBlock m h) (beforeBadByte f v) := by
  have hk := kept_le (m b) h.headersLen
  have hsz := pre.size
  have hle := pre.le
  rw [addHeader_api pre.buf.1 pre.field_ne pre.value_ne pre.le,
    addHeader_eq pre.buf.1 pre.field_ne pre.value_ne pre.le pre.buf.2 (by omega)] at hrun
  by_cases hfit : h.bufferLen < kept (m b) h.headersLen + f.length + v.length + 6
  · rw [if_pos hfit] at hrun; simp at hrun
  · rw [if_neg hfit] at hrun
    unfold beforeBadByte
    by_cases hcf : CleanField f
    · rw [if_neg (by simpa using hcf)] at hrun
      rw [if_pos hcf]
      by_cases hcv : CleanValue v
      · rw [if_neg (by simpa using hcv)] at hrun; simp at hrun
      · rw [if_pos hcv] at hrun
        simp only [Run.ok_bind, Run.ok.injEq, Prod.mk.injEq, Option.some.injEq, true_and] at hrun
        obtain ⟨rfl, rfl⟩ := hrun
        rw [cleanPrefix_eq]
        exact ⟨rfl, block_overwritten pre.buf.1 (by have := pre.buf.2; omega) _⟩
    · rw [if_pos hcf] at hrun
      rw [if_neg hcf]
      simp only [Run.ok_bind, Run.ok.injEq, Prod.mk.injEq, Option.some.injEq, true_and] at hrun
      obtain ⟨rfl, rfl⟩ := hrun
      rw [cleanFieldPrefix_eq]
      exact ⟨rfl, block_overwritten pre.buf.1 (by have := pre.buf.2; omega) _⟩

/-- Nothing is changed when the field name begins with a bad byte. -/
theorem overwritten_same (block : Bytes) {c : UInt8} {f v : Bytes} (h : c = 13 ∨ c = 10 ∨ c = 58) :
    overwritten block (beforeBadByte (c :: f) v) = block := by
  have h0 : beforeBadByte (c :: f) v = [] := by
    unfold beforeBadByte
    rw [if_neg (fun hc => by have := hc c (by simp); rcases h with h | h | h <;> simp [h] at this)]
    unfold cleanFieldPrefix
    rcases h with h | h | h <;> simp [h]
  rw [h0]
  unfold overwritten
  by_cases hs : crlf ++ crlf <:+ block
  · rw [if_pos hs]
    obtain ⟨p, rfl⟩ := hs
    rw [← List.append_assoc, strip_crlf ⟨p, rfl⟩]
    simp [crlf]
  · rw [if_neg hs]

/-- **C09, exactly when it fails.** After HTTPSecurityAlertInvalidCharacter the header block is what it was if and only if it did not end in a
blank line or the field name begins with the bad byte. -/
theorem C09_unchanged_iff {cfg : Cfg} {m m' : Mem} {h h' : ReqHeaders} {b : Nat} {f v : Bytes} {c : UInt8} (pre : AddPre cfg m h b (c :: f) v)
    (hrun : HTTPClient_AddHeader cfg m (some h) (some (c :: f)) (some v) = .ok (.invalidCharacter, some h', m')) :
    headerBlock m' h' = headerBlock m h ↔ ¬ (crlf ++ crlf <:+ headerBlock m h) ∨ c = 13 ∨ c = 10 ∨ c = 58 := by
  rw [(C09_failed_add_exact pre hrun).2]
  constructor
  · intro he
    by_cases hs : crlf ++ crlf <:+ headerBlock m h
    · right
      by_cases hc : c = 13 ∨ c = 10 ∨ c = 58
      · exact hc
      · exfalso
        have h0 : ∃ t, beforeBadByte (c :: f) v = c :: t := by
          unfold beforeBadByte
          by_cases hcf : CleanField (c :: f)
          · rw [if_pos hcf]; exact ⟨_, rfl⟩
          · rw [if_neg hcf]
            unfold cleanFieldPrefix
            rw [List.takeWhile_cons, if_pos (by simpa only [decide_eq_true_eq, not_or] using hc)]
            exact ⟨_, rfl⟩
        obtain ⟨t, ht⟩ := h0
        rw [ht] at he
        unfold overwritten at he
        rw [if_pos hs] at he
        obtain ⟨p, hp⟩ := hs
        rw [← hp, ← List.append_assoc, strip_crlf ⟨p, rfl⟩] at he
        have he := List.append_cancel_left he
        exact hc (.inl (by cases t <;> simp [crlf] at he <;> first | exact he | exact he.1))
    · exact .inl hs
  · rintro (hs | hc)
    · unfold overwritten; rw [if_neg hs]
    · exact overwritten_same _ hc

/-- One call of a history. -/
theorem op_block {cfg : Cfg} (hua : cfg.userAgent ≠ []) {m : Mem} {h : ReqHeaders} {b : Nat} {op : BuildOp} (hbuf : HasBuf m h b)
    (hop : OpOk cfg h.bufferLen op) :
    ∃ st h' m', runBuildOp cfg m h op = .ok (st, some h', m') ∧ HasBuf m' h' b ∧ h'.bufferLen = h.bufferLen ∧
      (∀ B, blockStep cfg.userAgent none op st = some B → headerBlock m' h' = B) ∧
      ∀ B, blockStep cfg.userAgent (some (headerBlock m h)) op st = some B → headerBlock m' h' = B := by
  obtain ⟨st, h', m', e, hb', hbl', _, hfr, hcase, hinv, habs⟩ := runBuildOp_spec (op := op) hua hbuf.1 hbuf.2 hop
  refine ⟨st, h', m', e, ⟨hb', by rw [hbl', hfr.2.1]; exact hbuf.2⟩, hbl', ?_⟩
  have same : h' = h → m' = m → blockStep cfg.userAgent none op st = none →
      blockStep cfg.userAgent (some (headerBlock m h)) op st = some (headerBlock m h) →
      (∀ B, blockStep cfg.userAgent none op st = some B → headerBlock m' h' = B) ∧
      ∀ B, blockStep cfg.userAgent (some (headerBlock m h)) op st = some B → headerBlock m' h' = B := by
    rintro rfl rfl h1 h2
    rw [h1, h2]
    exact ⟨fun B hB => by simp at hB, fun B hB => Option.some.inj hB⟩
  cases op with
  | init info =>
    by_cases hp : st = .invalidParameter
    · subst hp
      obtain ⟨rfl, rfl⟩ := hinv rfl
      have hn : ∀ B, blockStep cfg.userAgent B (.init info) .invalidParameter = B := by
        intro B; unfold blockStep; split <;> simp_all
      exact same rfl rfl (hn _) (hn _)
    · by_cases hs : st = .success
      · subst hs
        rcases info with _ | ⟨_ | me, p, _ | ho, fl⟩ <;> try (simp [blockStep]; done)
        have := (habs none (by simp) _ _ rfl).1
        exact ⟨fun B hB => this.eq.trans (Option.some.inj hB), fun B hB => this.eq.trans (Option.some.inj hB)⟩
      · have hn : ∀ B, blockStep cfg.userAgent B (.init info) st = none := by
          intro B; unfold blockStep; split <;> simp_all
        exact ⟨fun B hB => by rw [hn] at hB; simp at hB, fun B hB => by rw [hn] at hB; simp at hB⟩
  | addHeader f v =>
    by_cases hp : st = .invalidParameter
    · subst hp
      obtain ⟨rfl, rfl⟩ := hinv rfl
      exact same rfl rfl (by cases f <;> cases v <;> rfl) (by cases f <;> cases v <;> rfl)
    · simp only [runBuildOp] at e
      rcases f with _ | f
      · simp [HTTPClient_AddHeader, hbuf.1] at e; exact absurd e.1.symm hp
      rcases v with _ | v
      · simp [HTTPClient_AddHeader, hbuf.1] at e; exact absurd e.1.symm hp
      by_cases hf : f = []
      · simp [HTTPClient_AddHeader, hbuf.1, hf] at e; exact absurd e.1.symm hp
      by_cases hv : v = []
      · simp [HTTPClient_AddHeader, hbuf.1, hf, hv] at e; exact absurd e.1.symm hp
      by_cases hle : h.headersLen ≤ h.bufferLen
      · have hs := hop.1
        simp only [opSize] at hs
        have pre : AddPre cfg m h b f v := ⟨hbuf, hle, hf, hv, by omega⟩
        obtain ⟨st1, h1, m1, e1, _, _, _, _, _, hins, _, _, _, hsuc, hcase1⟩ := addHeader_full pre
        rw [e] at e1
        simp only [Run.ok.injEq, Prod.mk.injEq, Option.some.injEq] at e1
        obtain ⟨rfl, rfl, rfl⟩ := e1
        rcases hcase1 with h0 | h0 | h0
        · subst h0
          exact ⟨fun B hB => by simp [blockStep] at hB, fun B hB => by
            simp only [blockStep, Option.map_some, Option.some.injEq] at hB; rw [← hB]; exact (hsuc rfl).1⟩
        · subst h0
          obtain ⟨rfl, rfl⟩ := hins rfl
          exact same rfl rfl rfl rfl
        · subst h0
          exact ⟨fun B hB => by simp [blockStep] at hB, fun B hB => by
            simp only [blockStep, Option.map_some, Option.some.injEq] at hB; rw [← hB]; exact (C09_failed_add_exact pre e).2⟩
      · simp [HTTPClient_AddHeader, hbuf.1, hf, hv, Nat.lt_of_not_le hle] at e; exact absurd e.1.symm hp
  | addRange s t =>
    simp only [runBuildOp] at e
    by_cases hs : st = .success
    · subst hs
      obtain ⟨text, h1, h2, _⟩ := C14_range_text hbuf hop e
      exact ⟨fun B hB => by simp [blockStep] at hB, fun B hB => by
        simp only [blockStep, Option.map_some, Option.some.injEq] at hB; rw [← hB, h1, h2]⟩
    · obtain ⟨h1, h2⟩ := C09_failed_addRange hbuf hop e hs
      have hn : ∀ B, blockStep cfg.userAgent B (.addRange s t) st = B := by
        intro B; unfold blockStep; split <;> simp_all
      exact same (Option.some.inj h1) h2 (hn _) (hn _)

/-- **C78, exactly what any history makes.** After any history of request-building calls on an object with any header block, with any results, the
header block is what `blockRun` says: also after rejected headers, and after further calls after them. -/
theorem C78_history_exact {cfg : Cfg} (hua : cfg.userAgent ≠ []) {b : Nat} (ops : List BuildOp) : ∀ {m : Mem} {h : ReqHeaders},
    HasBuf m h b → (∀ op ∈ ops, OpOk cfg h.bufferLen op) →
    ∃ sts h' m', runBuildOps cfg m h ops = .ok (sts, h', m') ∧ sts.length = ops.length ∧
      ∀ B, blockRun cfg.userAgent (some (headerBlock m h)) (ops.zip sts) = some B → headerBlock m' h' = B := by
  suffices H : ∀ (ops : List BuildOp) {m : Mem} {h : ReqHeaders}, HasBuf m h b → (∀ op ∈ ops, OpOk cfg h.bufferLen op) →
      ∃ sts h' m', runBuildOps cfg m h ops = .ok (sts, h', m') ∧ sts.length = ops.length ∧
        (∀ B, blockRun cfg.userAgent none (ops.zip sts) = some B → headerBlock m' h' = B) ∧
        ∀ B, blockRun cfg.userAgent (some (headerBlock m h)) (ops.zip sts) = some B → headerBlock m' h' = B by
    intro m h hb ho
    obtain ⟨sts, h', m', e, hl, _, h2⟩ := H ops hb ho
    exact ⟨sts, h', m', e, hl, h2⟩
  intro ops
  induction ops with
  | nil => intro m h _ _; exact ⟨[], h, m, rfl, rfl, fun B hB => by simp [blockRun] at hB, fun B hB => Option.some.inj hB⟩
  | cons op ops ih =>
    intro m h hbuf hops
    obtain ⟨st, h1, m1, e1, hb1, hbl1, hn, hs⟩ := op_block hua hbuf (hops op (by simp))
    obtain ⟨sts, h', m', e', hlen', k1, k2⟩ := ih hb1 (by rw [hbl1]; exact fun o ho => hops o (by simp [ho]))
    refine ⟨st :: sts, h', m', ?_, by simp [hlen'], ?_, ?_⟩
    · simp only [runBuildOps, e1, Run.ok_bind, e']
    · intro B hB
      simp only [List.zip_cons_cons, blockRun] at hB
      cases hx : blockStep cfg.userAgent none op st with
      | none => rw [hx] at hB; exact k1 B hB
      | some x => rw [hx, ← hn x hx] at hB; exact k2 B hB
    · intro B hB
      simp only [List.zip_cons_cons, blockRun] at hB
      cases hx : blockStep cfg.userAgent (some (headerBlock m h)) op st with
      | none => rw [hx] at hB; exact k1 B hB
      | some x => rw [hx, ← hs x hx] at hB; exact k2 B hB

theorem strip_block {l : Bytes} (hl : crlf <:+ l) (hs : List (Bytes × Bytes)) : stripBlankLine (requestBlock l hs) = l ++ headerLines hs := by
  apply strip_crlf
  rcases hs.eq_nil_or_concat with h0 | ⟨t, ⟨f, v⟩, h0⟩
  · subst h0; simpa [headerLines] using hl
  · subst h0
    rw [List.concat_eq_append, headerLines_append]
    have := crlf_suffix_headerLine (l ++ headerLines t) f v
    simpa [headerLines, List.append_assoc] using this

theorem add_block {l : Bytes} (hl : crlf <:+ l) (hs : List (Bytes × Bytes)) (f v : Bytes) :
    stripBlankLine (requestBlock l hs) ++ headerLine f v ++ crlf = requestBlock l (hs ++ [(f, v)]) := by
  rw [strip_block hl]
  simp [requestBlock, headerLines, List.append_assoc]

/-- The header block of the accepted headers is what the history makes, if every rejection is harmless. -/
theorem accepted_block (ua : Bytes) (ops : List (BuildOp × Status)) (hh : ∀ x ∈ ops, Harmless x.1 x.2) : ∀ (a : AbsReq) (B : Option Bytes),
    (∀ l hs, a = some (l, hs) → B = some (requestBlock l hs) ∧ crlf <:+ l) →
    ∀ l hs, acceptedRun ua a ops = some (l, hs) → blockRun ua B ops = some (requestBlock l hs) := by
  induction ops with
  | nil => intro a B h l hs hr; exact (h l hs hr).1
  | cons x ops ih =>
    obtain ⟨op, st⟩ := x
    intro a B h l hs hr
    refine ih (fun x hx => hh x (List.mem_cons_of_mem _ hx)) (acceptedStep ua a op st) (blockStep ua B op st) ?_ l hs hr
    have hop : Harmless op st := hh (op, st) (by simp)
    intro l1 hs1 h1
    have adds : ∀ f v, a.map (fun x => (x.1, x.2 ++ [(f, v)])) = some (l1, hs1) →
        (B.map fun b => stripBlankLine b ++ headerLine f v ++ crlf) = some (requestBlock l1 hs1) ∧ crlf <:+ l1 := by
      intro f v hm
      rcases a with _ | ⟨l0, hs0⟩
      · simp at hm
      · simp only [Option.map_some, Option.some.injEq, Prod.mk.injEq] at hm
        obtain ⟨rfl, rfl⟩ := hm
        obtain ⟨h2, h3⟩ := h _ _ rfl
        rw [h2, Option.map_some, add_block h3]
        exact ⟨rfl, h3⟩
    cases op with
    | init info =>
      by_cases hp : st = .invalidParameter
      · subst hp
        have e1 : acceptedStep ua a (.init info) .invalidParameter = a := by unfold acceptedStep; split <;> simp_all
        have e2 : blockStep ua B (.init info) .invalidParameter = B := by unfold blockStep; split <;> simp_all
        rw [e2]; rw [e1] at h1; exact h l1 hs1 h1
      · by_cases hs' : st = .success
        · subst hs'
          rcases info with _ | ⟨_ | me, p, _ | ho, fl⟩ <;> try (simp [acceptedStep] at h1; done)
          simp only [acceptedStep, Option.some.injEq, Prod.mk.injEq] at h1
          obtain ⟨rfl, rfl⟩ := h1
          exact ⟨rfl, requestLine_crlf _ _⟩
        · have e1 : acceptedStep ua a (.init info) st = none := by unfold acceptedStep; split <;> simp_all
          rw [e1] at h1; simp at h1
    | addHeader f v =>
      rcases f with _ | f
      · exact h l1 hs1 (by cases st <;> exact h1)
      rcases v with _ | v
      · exact h l1 hs1 (by cases st <;> exact h1)
      by_cases hs' : st = .success
      · subst hs'; exact adds f v h1
      · by_cases hi : st = .invalidCharacter
        · subst hi
          have h2 := h l1 hs1 h1
          obtain ⟨c, rest, rfl, hc⟩ := hop
          simp only [blockStep]
          rw [h2.1, Option.map_some, overwritten_same _ hc]
          exact ⟨rfl, h2.2⟩
        · have e1 : acceptedStep ua a (.addHeader (some f) (some v)) st = a := by unfold acceptedStep; split <;> simp_all
          have e2 : blockStep ua B (.addHeader (some f) (some v)) st = B := by unfold blockStep; split <;> simp_all
          rw [e2]; rw [e1] at h1; exact h l1 hs1 h1
    | addRange s e =>
      by_cases hs' : st = .success
      · subst hs'; exact adds _ _ h1
      · have e1 : acceptedStep ua a (.addRange s e) st = a := by unfold acceptedStep; split <;> simp_all
        have e2 : blockStep ua B (.addRange s e) st = B := by unfold blockStep; split <;> simp_all
        rw [e2]; rw [e1] at h1; exact h l1 hs1 h1

/-- **C78, partial.** After any history of calls in which every header that was rejected for a bad byte was rejected at the first byte of its name
(missing: the other rejections), the header block is exactly the request line and the headers of the successful calls, in order. -/
theorem C78_rejected_partial {cfg : Cfg} (hua : cfg.userAgent ≠ []) {b : Nat} (ops : List BuildOp) {m : Mem} {h : ReqHeaders}
    (hbuf : HasBuf m h b) (hops : ∀ op ∈ ops, OpOk cfg h.bufferLen op) :
    ∃ sts h' m', runBuildOps cfg m h ops = .ok (sts, h', m') ∧ sts.length = ops.length ∧
      ∀ line hs, (∀ x ∈ ops.zip sts, Harmless x.1 x.2) → acceptedRun cfg.userAgent none (ops.zip sts) = some (line, hs) →
        headerBlock m' h' = requestBlock line hs := by
  obtain ⟨sts, h', m', e, hl, hB⟩ := C78_history_exact hua ops hbuf hops
  exact ⟨sts, h', m', e, hl, fun line hs hh hr => hB _ (accepted_block _ _ hh none _ (by simp) _ _ hr)⟩

/-- **C78 is false of the code.** Take any request whose header block is complete, and any header that is rejected for a byte which is not among the first
two of its name. If the application goes on and sends the request with a body, then the Content-Length line does not get a line of its own: the
server reads a header whose name is those two bytes and `Content-Length`, and takes what follows the header block (`rest`: the body) for something else. -/
theorem C78_refuted {cfg : Cfg} {T : Transport σ} {send : σ → Bytes → Int × σ} {clock : TimeFn σ} {h : ReqHeaders} {b n : Nat}
    {flags : UInt32} {w : World π σ} {me p f v : Bytes} {hs : List (Bytes × Bytes)} {c d : UInt8}
    (pre : SendPre cfg T send clock w.mem h b) (hmax : n ≤ 2147483647) (ha : addsContentLength n flags.toNat = true)
    (hblock : headerBlock w.mem h = requestBlock (requestLine me p) hs) (hm : CleanValue me) (hp : CleanValue p)
    (hcl : ∀ q ∈ hs, q.1 ≠ [] ∧ CleanField q.1 ∧ CleanValue q.2)
    (hf : CleanField [c, d]) (hv : v ≠ []) (hbad : ¬ (CleanField f ∧ CleanValue v))
    (hroom : (headerBlock w.mem h).length + f.length + v.length + 6 ≤ h.bufferLen) (hroom2 : (headerBlock w.mem h).length + 32 ≤ h.bufferLen)
    (hsize : h.headersLen + f.length + v.length + 8 < 2 ^ cfg.sizeBits) (fuel : Nat) :
    ∃ m1, HTTPClient_AddHeader cfg w.mem (some h) (some (c :: d :: f)) (some v) = .ok (.invalidCharacter, some h, m1) ∧
      ∃ r w' evs, HTTPClient_SendHttpHeaders cfg fuel (some T) clock (some h) n flags ⟨w.env, m1, w.log⟩ = (r, w') ∧ w'.log = w.log ++ evs ∧
        ∀ oh, r = .ok (.success, oh) → ∀ rest, readRequest (accepted evs ++ rest) =
          some (me ++ ascii " " ++ p ++ ascii " HTTP/1.1", hs ++ [([c, d] ++ ascii "Content-Length", decimal n)], rest) := by
  have hcd : ∀ g, CleanField (c :: d :: g) ↔ CleanField g := by
    intro g
    exact ⟨fun h x hx => h x (by simp [hx]), fun h x hx => by
      simp only [List.mem_cons] at hx
      rcases hx with rfl | rfl | hx
      · exact hf _ (by simp)
      · exact hf _ (by simp)
      · exact h x hx⟩
  have apre : AddPre cfg w.mem h b (c :: d :: f) v := ⟨pre.buf, pre.le, by simp, hv, by simp only [List.length_cons]; omega⟩
  have hsl := strip_length_le (headerBlock w.mem h)
  have hstrip : stripBlankLine (headerBlock w.mem h) = requestLine me p ++ headerLines hs := by rw [hblock, strip_block (requestLine_crlf _ _)]
  have hsl2 : (stripBlankLine (headerBlock w.mem h)).length + 2 = (headerBlock w.mem h).length := by
    rw [hstrip, hblock]; simp only [requestBlock, List.length_append, len_crlf]
  obtain ⟨st, h1, m1, e1, hb1, hbl1, _, hfr, _, _, _, hic, _, _, _⟩ := addHeader_full apre
  have hst : st = .invalidCharacter := hic.mpr ⟨by simp only [List.length_cons]; omega, fun hh => hbad ⟨(hcd f).mp hh.1, hh.2⟩⟩
  subst hst
  obtain ⟨rfl, hblk⟩ := C09_failed_add_exact apre e1
  refine ⟨m1, e1, ?_⟩
  have hpart : ∃ t, beforeBadByte (c :: d :: f) v = c :: d :: t := by
    unfold beforeBadByte
    by_cases hc : CleanField (c :: d :: f)
    · rw [if_pos hc]; exact ⟨_, rfl⟩
    · rw [if_neg hc]
      have h2 := hf c (by simp)
      have h3 := hf d (by simp)
      unfold cleanFieldPrefix
      rw [List.takeWhile_cons, if_pos (by simpa using h2), List.takeWhile_cons, if_pos (by simpa using h3)]
      exact ⟨_, rfl⟩
  obtain ⟨t, ht⟩ := hpart
  have hsuf : crlf ++ crlf <:+ headerBlock w.mem h1 := by
    have h2 : crlf <:+ requestLine me p ++ headerLines hs := by
      rcases hs.eq_nil_or_concat with h0 | ⟨t, ⟨f, v⟩, h0⟩
      · subst h0; simpa [headerLines] using requestLine_crlf me p
      · subst h0
        rw [List.concat_eq_append, headerLines_append]
        have := crlf_suffix_headerLine (requestLine me p ++ headerLines t) f v
        simpa [headerLines, List.append_assoc] using this
    obtain ⟨q, hq⟩ := h2
    exact ⟨q, by rw [hblock, requestBlock, ← hq, List.append_assoc]⟩
  rw [ht, overwritten, if_pos hsuf, hstrip] at hblk
  have hblk : headerBlock m1 h1 = requestLine me p ++ headerLines hs ++ [c, d] := by rw [hblk]; simp
  have hnostrip : stripBlankLine (headerBlock m1 h1) = headerBlock m1 h1 := by
    unfold stripBlankLine
    rw [if_neg]
    rw [hblk]
    rintro ⟨q, hq⟩
    have h2 : (requestLine me p ++ headerLines hs ++ [c, d]).reverse = (q ++ (crlf ++ crlf)).reverse := by rw [hq]
    simp only [crlf, List.reverse_append, List.reverse_cons, List.reverse_nil, List.nil_append, List.cons_append, List.cons.injEq] at h2
    exact (hf d (by simp)).2.1 h2.1
  have spre : SendPre cfg T send clock (⟨w.env, m1, w.log⟩ : World π σ).mem h1 b :=
    ⟨pre.transport, pre.sendOk, pre.clockOk, ⟨hb1, by have := hfr.2.1; have := pre.buf.2; simp only; omega⟩, pre.le, pre.size⟩
  have hwire : wireHeaders (headerBlock m1 h1) n flags.toNat =
      requestBlock (requestLine me p) (hs ++ [([c, d] ++ ascii "Content-Length", decimal n)]) := by
    unfold wireHeaders
    rw [if_pos ha, hnostrip, hblk]
    simp [requestBlock, headerLines, headerLine, List.append_assoc]
  have hdec : (decimal n).length ≤ 10 := decimal_le10 (by omega)
  obtain ⟨r, w', evs, e2, hlog, _, hacc, _⟩ := C17_content_length (w := (⟨w.env, m1, w.log⟩ : World π σ)) (n := n) (flags := flags) spre hmax
    (by
      show (wireHeaders (headerBlock m1 h1) n flags.toNat).length ≤ _
      have h14 : (ascii "Content-Length").length = 14 := by decide
      unfold wireHeaders
      rw [if_pos ha, hnostrip, hblk, ← hstrip]
      simp only [List.length_append, headerLine_length, len_crlf, List.length_cons, List.length_nil, h14]
      omega) fuel
  refine ⟨r, w', evs, e2, hlog, fun oh hr rest => ?_⟩
  rw [hacc oh hr]
  simp only
  rw [hwire, readRequest_block me p _ rest hm hp]
  · have e1 : ascii " " = [32] := by decide
    have e2 : ascii " HTTP/1.1" = [32] ++ ascii "HTTP/1.1" := by decide
    rw [e1, e2]; simp [List.append_assoc]
  · intro q hq
    rcases List.mem_append.mp hq with hq | hq
    · exact hcl q hq
    · simp only [List.mem_singleton] at hq
      subst hq
      refine ⟨by simp, fun x hx => ?_, clean_decimal n⟩
      rcases List.mem_append.mp hx with hx | hx
      · exact hf x hx
      · exact (show CleanField (ascii "Content-Length") by decide) x hx

/-! A concrete case: a request to `a`, then a header with LF in its value, then sending with a body of 5 bytes. -/

/-- The request as initialised. -/
def rejHdr : ReqHeaders := ⟨some 0, 100, 27⟩
/-- Its memory. -/
def rejMem : Mem := fun _ => ascii "GET / HTTP/1.1\r\nHost: a\r\n\r\n" ++ List.replicate 100 0
/-- A transport that accepts everything. -/
def rejT : Transport Unit := ⟨some fun s d => (d.length, s), none⟩
/-- What the transport accepts in the end. -/
def rejSent : Option Bytes :=
  match HTTPClient_AddHeader exCfg rejMem (some rejHdr) (some (ascii "Cookie")) (some (ascii "x\ny")) with
  | .ok (_, some h, m) =>
    match HTTPClient_SendHttpHeaders (π := Unit) exCfg 10 (some rejT) .zero (some h) 5 0 ⟨(), m, []⟩ with
    | (.ok (.success, _), w) => some (accepted w.log)
    | _ => none
  | _ => none

example : rejSent = some (ascii "GET / HTTP/1.1\r\nHost: a\r\nCoContent-Length: 5\r\n\r\n") := by decide +kernel
example : headerBlock rejMem rejHdr = requestBlock (requestLine (ascii "GET") (ascii "/")) [(ascii "Host", ascii "a")] ∧
    (∀ q ∈ [(ascii "Host", ascii "a")], q.1 ≠ [] ∧ CleanField q.1 ∧ CleanValue q.2) ∧ ¬ (CleanField (ascii "okie") ∧ CleanValue (ascii "x\ny")) ∧
    (headerBlock rejMem rejHdr).length + 32 ≤ rejHdr.bufferLen := by decide +kernel

/-- A history with a header rejected at its first byte, one rejected in its value, and one added after each. -/
def rejOps (f : Bytes) : List BuildOp :=
  [.init (some ⟨some (ascii "GET"), none, some (ascii "a"), 2⟩), .addHeader (some f) (some (ascii "v\n")),
   .addHeader (some (ascii "Next")) (some (ascii "1"))]
/-- The statuses and the header block after it. -/
def rejResult (f : Bytes) : Option (List Status × Bytes) :=
  match runBuildOps exCfg rejMem rejHdr (rejOps f) with
  | .ok (sts, h, m) => some (sts, headerBlock m h)
  | _ => none
example : rejResult (ascii ":x") =
    some ([.success, .invalidCharacter, .success], ascii "GET / HTTP/1.1\r\nHost: a\r\nNext: 1\r\n\r\n") := by decide +kernel
example : rejResult (ascii "Xyz") =
    some ([.success, .invalidCharacter, .success], ascii "GET / HTTP/1.1\r\nHost: a\r\nXyNext: 1\r\n\r\n") := by decide +kernel
example : ∀ x ∈ (rejOps (ascii ":x")).zip [Status.success, .invalidCharacter, .success], Harmless x.1 x.2 := by
  intro x hx
  simp only [rejOps, List.zip_cons_cons, List.zip_nil_right, List.mem_cons, List.not_mem_nil, or_false] at hx
  rcases hx with rfl | rfl | rfl
  · trivial
  · exact ⟨58, _, rfl, by decide⟩
  · trivial

end CoreHttp.Props

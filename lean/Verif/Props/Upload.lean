import Verif.Props.Versions
import Verif.Props.Whole
import Verif.Spec.Upload

/-! # C116: an upload in pieces that may be interrupted at any time -/

namespace CoreHttp.Props
open CoreHttp Spec Spec.Upload Ref Machine
variable {σ : Type} {cfg : Cfg} {T : Transport σ} {send : σ → Bytes → Int × σ} {recv : σ → Nat → Int × Bytes × σ}
  {resp : Resp σ} {rh h : ReqHeaders} {b rb bb : Nat} {got rest : σ → Bytes} {path host file : Bytes} {fl sendFl : UInt32}

/-- The message is a piece of the file, described as that. -/
def IsPiece (path file : Bytes) (m : Message) : Prop :=
  ∃ n k v, m.headers.filter (·.1 == ascii "Upload-Offset") = [(ascii "Upload-Offset", v)] ∧ readDecimal v = some n ∧ m.body = (file.drop n).take k

theorem storeStep_piece {m : Message} (hm : IsPiece path file m) {store : Bytes} (hs : store <+: file) :
    storeStep path store m <+: file ∧ store <+: storeStep path store m := by
  obtain ⟨n, k, v, h1, h2, h3⟩ := hm
  unfold storeStep
  rw [h1]
  dsimp only
  split
  · rename_i hc
    obtain ⟨_, hc⟩ := hc
    rw [h2] at hc
    obtain rfl := Option.some.inj hc
    refine ⟨?_, List.prefix_append _ _⟩
    obtain ⟨t, rfl⟩ := hs
    rw [h3, List.drop_left]
    exact (List.prefix_append_right_inj _).mpr (List.take_prefix _ _)
  · exact ⟨hs, List.prefix_refl _⟩

theorem foldl_piece {ms : List Message} (hms : ∀ m ∈ ms, IsPiece path file m) : ∀ {store : Bytes}, store <+: file →
    ms.foldl (storeStep path) store <+: file ∧ store <+: ms.foldl (storeStep path) store := by
  induction ms with
  | nil => intro store hs; exact ⟨hs, List.prefix_refl _⟩
  | cons m ms ih =>
    intro store hs
    obtain ⟨h1, h2⟩ := storeStep_piece (hms m (by simp)) hs
    obtain ⟨h3, h4⟩ := ih (fun m' h' => hms m' (by simp [h'])) h1
    exact ⟨h3, h2.trans h4⟩

/-- Between what is stored earlier and later. -/
theorem stored_mono {hist done : List Message} (hms : ∀ m ∈ hist, IsPiece path file m) (hd : done <+: hist) :
    storedAfter path done <+: storedAfter path hist ∧ storedAfter path hist <+: file := by
  obtain ⟨t, rfl⟩ := hd
  unfold storedAfter
  rw [List.foldl_append]
  have h1 := foldl_piece (path := path) (file := file) (ms := done) (fun m h => hms m (by simp [h])) (store := []) List.nil_prefix
  have h2 := foldl_piece (path := path) (file := file) (ms := t) (fun m h => hms m (by simp [h])) h1.1
  exact ⟨h2.2, h2.1⟩

theorem one_offset (ua ho : Bytes) (fl n k sfl : Nat) :
    (documentedHeaders ua ho fl ++ [(ascii "Upload-Offset", decimal n)] ++ autoLength k sfl).filter (·.1 == ascii "Upload-Offset") =
      [(ascii "Upload-Offset", decimal n)] := by
  have e1 : (ascii "User-Agent" == ascii "Upload-Offset") = false := by decide
  have e2 : (ascii "Host" == ascii "Upload-Offset") = false := by decide
  have e3 : (ascii "Connection" == ascii "Upload-Offset") = false := by decide
  have e4 : (ascii "Upload-Offset" == ascii "Upload-Offset") = true := by decide
  have e5 : (ascii "Content-Length" == ascii "Upload-Offset") = false := by decide
  unfold documentedHeaders autoLength
  cases fl.testBit 1 <;> cases fl.testBit 0 <;> cases addsContentLength k sfl <;> simp [List.filter_cons, e1, e2, e3, e4, e5]

theorem unframed_patch (ua ho : Bytes) (fl n : Nat) (me : Bytes) :
    (⟨me, path, documentedHeaders ua ho fl ++ [(ascii "Upload-Offset", decimal n)]⟩ : Described).Unframed := by
  have e1 : ¬ (ascii "User-Agent").map lowerAscii = ascii "content-length" := by decide +kernel
  have e2 : ¬ (ascii "Host").map lowerAscii = ascii "content-length" := by decide +kernel
  have e3 : ¬ (ascii "Connection").map lowerAscii = ascii "content-length" := by decide +kernel
  have e4 : ¬ (ascii "Upload-Offset").map lowerAscii = ascii "content-length" := by decide +kernel
  have f1 : ¬ (ascii "User-Agent").map lowerAscii = ascii "transfer-encoding" := by decide +kernel
  have f2 : ¬ (ascii "Host").map lowerAscii = ascii "transfer-encoding" := by decide +kernel
  have f3 : ¬ (ascii "Connection").map lowerAscii = ascii "transfer-encoding" := by decide +kernel
  have f4 : ¬ (ascii "Upload-Offset").map lowerAscii = ascii "transfer-encoding" := by decide +kernel
  constructor <;>
  · unfold valuesOf documentedHeaders
    cases fl.testBit 1 <;> cases fl.testBit 0 <;> simp [List.filter_cons, e1, e2, e3, e4, f1, f2, f3, f4]

/-- The requests of the loop. -/
theorem patch_request {m m1 : Mem} {n k : Nat} {sts : List Status}
    (hset : Setup true httpParser cfg T send recv h rb (some bb) k resp b m) (hpa : path ≠ []) (hclp : CleanValue path)
    (hops : ∀ op ∈ patchOps path host fl n, OpOk cfg h.bufferLen op)
    (hall : sts.all (· == .success) = true) (e : runBuildOps cfg m h (patchOps path host fl n) = .ok (sts, rh, m1)) :
    CallPre true httpParser cfg T send recv rh rb (some bb) k resp b m1 ∧ rh.bufferLen = h.bufferLen ∧ (∀ i, (m1 i).length = (m i).length) ∧
      ReqIs false (headerBlock m1 rh) ∧ bodyOf m1 (some bb) k = bodyOf m (some bb) k ∧
      ∃ q : Described, headerBlock m1 rh = q.block ∧ q.Clean ∧ q.Unframed ∧ q.line = patchLine path ∧
        q.headers = documentedHeaders cfg.userAgent host fl.toNat ++ [(ascii "Upload-Offset", decimal n)] := by
  have hep : effectivePath (some path) = path := by
    unfold effectivePath
    cases path with
    | nil => exact absurd rfl hpa
    | cons x t => rfl
  obtain ⟨_, _, _, e7, hlen7, _, _, _, hfr, _⟩ := runBuildOps_spec hset.agent _ m h rb none hset.reqBuf hset.reqRoom hops
  rw [e] at e7
  cases e7
  have hone : ∀ st ∈ sts, st = .success := fun st hst => by simpa using List.all_eq_true.mp hall st hst
  have habs : Spec.absRun cfg.userAgent none ((patchOps path host fl n).zip sts) =
      some (requestLine (ascii "PATCH") path, documentedHeaders cfg.userAgent host fl.toNat ++ [(ascii "Upload-Offset", decimal n)]) := by
    unfold patchOps at hlen7 ⊢
    obtain ⟨s1, s2, rfl⟩ : ∃ s1 s2, sts = [s1, s2] := by
      match sts, hlen7 with
      | [s1, s2], _ => exact ⟨s1, s2, rfl⟩
    obtain rfl := hone s1 (by simp)
    obtain rfl := hone s2 (by simp)
    simp only [List.zip_cons_cons, List.zip_nil_right, Spec.absRun, Spec.absStep, Option.map_some, hep]
  obtain ⟨hp, hbl1, hB, hne, hcl, hbd⟩ := built hset hops e habs
  refine ⟨hp, hbl1, ?_, ?_, hbd, ⟨ascii "PATCH", path, _⟩, hB, ⟨(show CleanValue (ascii "PATCH") by decide), hclp, hcl, hne⟩, unframed_patch _ _ _ _ _, ?_, rfl⟩
  · intro i
    by_cases hi : i = rb
    · subst hi; exact hfr.2.1
    · rw [hfr.1 i hi]
  · show ¬ ascii "HEAD" <+: headerBlock m1 rh
    rw [hB]
    intro hpre
    unfold requestBlock requestLine at hpre
    have := List.prefix_iff_eq_take.mp hpre
    have h2 := congrArg (fun x : Bytes => x[0]?) this
    revert h2
    simp [ascii]
  · show ascii "PATCH" ++ ascii " " ++ path ++ ascii " HTTP/1.1" = _
    unfold patchLine
    have e4 : ascii "PATCH" ++ ascii " " = ascii "PATCH " := by decide
    rw [e4]

theorem goOn_le {total n : Nat} {v : Bytes} (hn : n ≤ total) : goOn total n v ≤ total := by
  unfold goOn
  split
  · split <;> omega
  · exact hn

theorem found_append {logs more : List (List (Ev PLog))} {m : Message} : Found (logs ++ more) m ↔ Found logs m ∨ Found more m := by
  unfold Found
  constructor
  · rintro ⟨evs, h1, h2⟩
    rcases List.mem_append.mp h1 with h | h
    · exact .inl ⟨evs, h, h2⟩
    · exact .inr ⟨evs, h, h2⟩
  · rintro (⟨evs, h1, h2⟩ | ⟨evs, h1, h2⟩)
    · exact ⟨evs, List.mem_append.mpr (.inl h1), h2⟩
    · exact ⟨evs, List.mem_append.mpr (.inr h1), h2⟩

/-- What one call can make the server find. -/
theorem attempt_found {w : World PLog σ} {q : Described} {k n : Nat} (hp : CallPre true httpParser cfg T send recv rh rb (some bb) k resp b w.mem)
    (hB : headerBlock w.mem rh = q.block) (hq : q.Clean) (hu : q.Unframed)
    (hh : q.headers = documentedHeaders cfg.userAgent host fl.toNat ++ [(ascii "Upload-Offset", decimal n)])
    (hbody : ∃ k', bodyOf w.mem (some bb) k = (file.drop n).take k') (hfl : sendFl.toNat.testBit 0 = false) (hlog : w.log = []) (fuel : Nat) :
    ∃ r w', HTTPClient_Send httpParser cfg fuel (some T) (some rh) (some bb) k (some resp) sendFl w = (r, w') ∧ ∀ m, Found [w'.log] m → IsPiece path file m := by
  obtain ⟨r, w', evs, e, hl, h⟩ := C115_whole (flags := sendFl) hp hB hq hu hfl fuel
  refine ⟨r, w', e, ?_⟩
  rintro m ⟨evs', hev, pre, rest, hpre, hm⟩
  rw [List.mem_singleton, hl, hlog, List.nil_append] at hev
  subst hev
  rcases h pre hpre with h1 | ⟨_, h1⟩
  · rw [h1] at hm; cases hm
  · rw [h1] at hm
    cases hm
    obtain ⟨k', hk'⟩ := hbody
    refine ⟨n, k', decimal n, ?_, readDecimal_decimal n, hk'⟩
    rw [hh]
    exact one_offset cfg.userAgent host fl.toNat n k sendFl.toNat

theorem put_length {m : Mem} {piece : Bytes} (hl : piece.length ≤ (m bb).length) (i : Nat) : (put m bb piece i).length = (m i).length := by
  unfold put
  by_cases hi : i = bb
  · subst hi
    rw [Mem.set_same, List.length_append, List.length_drop]; omega
  · rw [Mem.set_other _ _ hi]

theorem put_body (m : Mem) (piece : Bytes) : bodyOf (put m bb piece) (some bb) piece.length = piece := by
  unfold bodyOf put
  dsimp only
  rw [Mem.set_same, List.take_left]

theorem upload_run {hist : List Message} (hpa : path ≠ []) (hclp : CleanValue path) (hfl : sendFl.toNat.testBit 0 = false)
    (hfile : file.length ≤ 10 ^ 20) (hsize : h.bufferLen + 39 < 2 ^ cfg.sizeBits)
    (hsize' : h.bufferLen + (requestBlock (requestLine (ascii "PATCH") path) (documentedHeaders cfg.userAgent host fl.toNat)).length < 2 ^ cfg.sizeBits)
    (fuel : Nat) : ∀ (as : List (Try σ)) (n : Nat) (logs : List (List (Ev PLog))) (h' : ReqHeaders) (resp' : Resp σ) (m' : Mem), n ≤ file.length →
      (∀ m, Found logs m → IsPiece path file m) → h'.bufferLen = h.bufferLen →
      (∀ a ∈ as, Setup true httpParser cfg a.transport a.send a.recv h' rb (some bb) a.size resp' b m') →
      ∃ out logs', upload httpParser cfg fuel path host fl sendFl file bb as n logs h' resp' m' = (out, logs') ∧
        (∀ f, out ≠ .fault f) ∧ (∀ m, Found logs' m → IsPiece path file m) ∧ (∀ n', out = .ok n' → n' ≤ file.length) ∧
        (¬ headersOnly resp'.respOptionFlags → (∀ a ∈ as, FlakyServer a.serves got rest a.send a.recv resp' ∧ a.Truthful path hist ∧ got a.start = []) →
          (∃ done, done <+: hist ∧ (storedAfter path done).length = n) → ∀ n', out = .ok n' → ∃ done, done <+: hist ∧ (storedAfter path done).length = n') := by
  intro as
  induction as with
  | nil =>
    intro n logs h' resp' m' hn hlogs _ _
    exact ⟨_, _, rfl, (fun f h => nomatch h), hlogs, (fun n' h => by cases h; exact hn), (fun _ _ ht n' h => by cases h; exact ht)⟩
  | cons a as ih =>
    intro n logs h' resp' m' hn hlogs hbl hset'
    have stop : ∀ (more : List (List (Ev PLog))), (∀ m, Found more m → IsPiece path file m) →
        (∀ f, (.ok n : Run Nat) ≠ .fault f) ∧ (∀ m, Found (logs ++ more) m → IsPiece path file m) ∧ (∀ n', (.ok n : Run Nat) = .ok n' → n' ≤ file.length) ∧
        (¬ headersOnly resp'.respOptionFlags → (∀ a_1 ∈ a :: as, FlakyServer a_1.serves got rest a_1.send a_1.recv resp' ∧ a_1.Truthful path hist ∧ got a_1.start = []) →
          (∃ done, done <+: hist ∧ (storedAfter path done).length = n) → ∀ n', (.ok n : Run Nat) = .ok n' → ∃ done, done <+: hist ∧ (storedAfter path done).length = n') :=
      fun more hmore => ⟨(fun f h => nomatch h), (fun m hm => (found_append.mp hm).elim (hlogs m) (hmore m)), (fun n' h => by cases h; exact hn),
        (fun _ _ ht n' h => by cases h; exact ht)⟩
    have stop0 := stop [] (fun m hm => by obtain ⟨_, h, _⟩ := hm; cases h)
    rw [List.append_nil] at stop0
    unfold upload
    by_cases hlt : n < file.length
    case neg => rw [if_neg hlt]; exact ⟨_, _, rfl, stop0⟩
    rw [if_pos hlt]
    dsimp only
    have hsetA := hset' a (by simp)
    generalize hpc : (file.drop n).take a.size = piece
    have hpl : piece.length ≤ a.size := by rw [← hpc, List.length_take]; omega
    have hroomB := (hsetA.bodyRoom bb rfl).1
    have hmaxB := hsetA.bodyMax
    have hputl := put_length (m := m') (bb := bb) (piece := piece) (by omega)
    have hset0 : Setup true httpParser cfg a.transport a.send a.recv h' rb (some bb) piece.length resp' b (put m' bb piece) :=
      { hsetA with
        reqRoom := by rw [hputl]; exact hsetA.reqRoom
        room := by rw [hputl]; exact hsetA.room
        bodyNone := (fun h => nomatch h)
        bodyRoom := (fun b' hb' => by cases hb'; rw [hputl]; exact ⟨by omega, (hsetA.bodyRoom bb rfl).2⟩)
        bodyMax := by omega }
    have hep : effectivePath (some path) = path := by
      unfold effectivePath
      cases path with
      | nil => exact absurd rfl hpa
      | cons x t => rfl
    have hops : ∀ op ∈ patchOps path host fl n, OpOk cfg h'.bufferLen op := by
      intro op hop
      unfold patchOps at hop
      rcases List.mem_cons.mp hop with rfl | hop
      · refine ⟨?_, trivial⟩
        show h'.bufferLen + (requestBlock (requestLine (ascii "PATCH") (effectivePath (some path)))
          (documentedHeaders cfg.userAgent host fl.toNat)).length < _
        rw [hep, hbl]; exact hsize'
      · simp only [List.mem_cons, List.not_mem_nil, or_false] at hop
        subst hop
        refine ⟨?_, trivial⟩
        show h'.bufferLen + ((ascii "Upload-Offset").length + (decimal n).length + 6) < _
        have h2 : (ascii "Upload-Offset").length = 13 := by decide
        have h3 : (decimal n).length ≤ 20 := decimal_length_le (k := 19) (by omega)
        omega
    obtain ⟨sts, rh, m1, e, hsl, _⟩ := runBuildOps_spec hset0.agent _ (put m' bb piece) h' rb none hset0.reqBuf hset0.reqRoom hops
    rw [e]
    dsimp only
    by_cases hall : sts.all (· == .success) = true
    case neg => rw [if_neg hall]; exact ⟨_, _, rfl, stop0⟩
    rw [if_pos hall]
    obtain ⟨hp, hbl1, hlen1, hreq, hbd, q, hB, hq, hu, hline, hh⟩ := patch_request (T := a.transport) hset0 hpa hclp hops hall e
    rw [put_body] at hbd
    obtain ⟨res, w', e5, hfound⟩ := attempt_found (w := ⟨a.start, m1, []⟩) (T := a.transport) (sendFl := sendFl) (file := file) (path := path) hp hB hq hu hh ⟨a.size, by rw [hbd, hpc]⟩ hfl rfl fuel
    have hfound' : ∀ m, Found (logs ++ [w'.log]) m → IsPiece path file m := fun m hm => (found_append.mp hm).elim (hlogs m) (hfound m)
    have stop1 := stop [w'.log] hfound
    rw [e5]
    rcases res with ⟨st, orh, oresp⟩ | f | _
    · obtain ⟨rh', resp2, rfl, rfl, hsu2, hb2', hbl2, _, _, _⟩ := send_leaves (w := ⟨a.start, m1, []⟩) hp e5
      dsimp only
      have hlen : ∀ i, (w'.mem i).length = (m' i).length := by
        intro i
        obtain ⟨_, w2, e6, _, _, h3, _⟩ := C60_safe (w := ⟨a.start, m1, []⟩) (flags := sendFl) hp fuel
        rw [e5] at e6
        cases e6
        rw [h3 i, ← hputl i]; exact hlen1 i
      obtain ⟨u1, u2, u3, u4, u5⟩ := hsu2
      have hset2 : ∀ m2 : Mem, m2 = w'.mem → ∀ p ∈ as, Setup true httpParser cfg p.transport p.send p.recv rh' rb (some bb) p.size resp2 b m2 := by
        rintro _ rfl p' hp'
        have hset := hset' p' (by simp [hp'])
        exact
        { hset with
          reqBuf := hb2'
          reqRoom := by rw [hbl2, hbl1, hlen]; exact hset.reqRoom
          reqSize := by rw [hbl2, hbl1]; exact hset.reqSize
          buf := u1.trans hset.buf
          pos := by rw [u2]; exact hset.pos
          room := by rw [u2, hlen]; exact hset.room
          size := by rw [u2]; exact hset.size
          callback := by rw [u3]; exact hset.callback
          bodyRoom := (fun b' hb' => by rw [hlen]; exact hset.bodyRoom b' hb') }
      have hS2 : (∀ p ∈ a :: as, FlakyServer p.serves got rest p.send p.recv resp' ∧ p.Truthful path hist ∧ got p.start = []) →
          ∀ p ∈ as, FlakyServer p.serves got rest p.send p.recv resp2 ∧ p.Truthful path hist ∧ got p.start = [] := fun hS p' hp' =>
        ⟨{ (hS p' (by simp [hp'])).1 with
          clock := fun f hf => (hS p' (by simp [hp'])).1.clock f (by
            rw [u4] at hf
            unfold withClock at hf
            dsimp only at hf
            cases hg : resp'.getTime <;> rw [hg] at hf <;> first | exact hf | cases hf)
          header := fun c hc => (hS p' (by simp [hp'])).1.header c (by rw [u3] at hc; exact hc) }, (hS p' (by simp [hp'])).2⟩
      have hnext : ∀ (n2 : Nat) (m2 : Mem), m2 = w'.mem → n2 ≤ file.length →
          (¬ headersOnly resp'.respOptionFlags → (∀ p ∈ a :: as, FlakyServer p.serves got rest p.send p.recv resp' ∧ p.Truthful path hist ∧ got p.start = []) →
            (∃ done, done <+: hist ∧ (storedAfter path done).length = n) → ∃ done, done <+: hist ∧ (storedAfter path done).length = n2) →
          ∃ out logs', upload httpParser cfg fuel path host fl sendFl file bb as n2 (logs ++ [w'.log]) rh' resp2 m2 = (out, logs') ∧
            (∀ f, out ≠ .fault f) ∧ (∀ m, Found logs' m → IsPiece path file m) ∧ (∀ n', out = .ok n' → n' ≤ file.length) ∧
            (¬ headersOnly resp'.respOptionFlags → (∀ p ∈ a :: as, FlakyServer p.serves got rest p.send p.recv resp' ∧ p.Truthful path hist ∧ got p.start = []) →
              (∃ done, done <+: hist ∧ (storedAfter path done).length = n) → ∀ n', out = .ok n' → ∃ done, done <+: hist ∧ (storedAfter path done).length = n') := by
        intro n2 m2 hm2 hn2 ht2
        obtain ⟨out, logs', e6, h1, h2, h3, h4⟩ := ih n2 (logs ++ [w'.log]) rh' resp2 m2 hn2 hfound' (by rw [hbl2, hbl1, hbl]) (hset2 m2 hm2)
        exact ⟨out, logs', e6, h1, h2, h3, fun hf hS ht => h4 (by rw [u5]; exact hf) (hS2 hS) (ht2 hf hS ht)⟩
      by_cases hok : st = .success ∧ (resp2.statusCode = 204 ∨ resp2.statusCode = 409)
      · rw [if_pos hok]
        obtain ⟨rfl, hcode⟩ := hok
        have hbuf : resp2.pBuffer = some b := u1.trans hsetA.buf
        have u2' : resp2.bufferLen = resp'.bufferLen := u2
        have hroom2 : resp2.bufferLen ≤ (w'.mem b).length := by rw [u2', hlen]; exact hsetA.room
        obtain ⟨st2, l2, k2, w2, e6, hm2, _⟩ := C55_safe (w := w') (P := httpParser) (strict := true) (name := ascii "Upload-Offset") ⟨hsetA.parser, hbuf, by rw [u2']; exact hsetA.pos, hroom2, by decide⟩ none 0
        have hnx := hnext n w2.mem hm2 hn (fun _ _ ht => ht)
        rw [e6]
        by_cases hst2 : st2 = .success
        · subst hst2
          dsimp only
          refine hnext _ _ hm2 (goOn_le hn) ?_
          intro hflag hS ht
          obtain ⟨hSA, htrue, hgs⟩ := hS a (by simp)
          have hwire : readMessage (wireRequest m1 rh (some bb) piece.length sendFl) = some (⟨q.line, q.headers ++ autoLength piece.length sendFl.toNat, piece⟩, []) := by
            have hr := read_length (n := piece.length) (fl := sendFl.toNat) hq hu hfl (bodyOf_length hp) []
            rw [List.append_nil, ← wire_described (n := piece.length) (flags := sendFl) hq hB, hbd] at hr
            unfold wireRequest
            rw [hbd]
            exact hr
          have hserves := fun x (hx : a.serves (wireRequest m1 rh (some bb) piece.length sendFl) x) => htrue _ x _ hx hwire hline
          obtain ⟨res, w3, evs, e7, hl5, h5⟩ := C90_exchange (w := ⟨a.start, m1, []⟩) (flags := sendFl) hp hreq hflag hSA hgs
            (fun x hx => (hserves x hx).imp fun r h => ⟨h.1, h.2.1⟩) fuel
          rw [e5] at e7
          cases e7
          rcases h5 _ _ resp2 rfl with ⟨_, h6, _⟩ | ⟨x, hx, _, h7⟩
          · exact absurd rfl h6
          obtain ⟨r, ok, hxr, hd⟩ := hserves x hx
          rcases h7 r ok hxr with ⟨_, hrec, g⟩ | ⟨h6, _⟩
          case inr => exact absurd rfl h6
          obtain ⟨v, done, hv, hdone, hnum⟩ := hd (by rw [← g.statusCode]; exact hcode)
          have hhl : r.head.length ≤ resp2.bufferLen := by
            have h1 : r.bytes.length = r.head.length + r.content.bytes.length := by simp [Response.bytes]
            have h2 : r.bytes.length ≤ resp'.bufferLen := by rw [← hrec]; exact send_received_le (w := ⟨a.start, m1, []⟩) hp e5 hl5
            omega
          obtain ⟨loc, len, w4, e8, hm4, hv4⟩ := lookup_value (w := w') hbuf hroom2 ok hhl (g.head b hbuf) (show ascii "Upload-Offset" ≠ [] by decide) hv
          rw [e6] at e8
          cases e8
          rw [hm2, hv4]
          unfold goOn
          rw [hnum]
          dsimp only
          split
          · exact ⟨done, hdone, rfl⟩
          · exact ht
        · cases st2 <;> first | exact absurd rfl hst2 | exact hnx
      · rw [if_neg hok]
        exact hnext n _ rfl hn (fun _ _ ht => ht)
    · obtain ⟨_, w2, e6, hnf, _⟩ := C60_safe (w := ⟨a.start, m1, []⟩) (flags := sendFl) hp fuel
      rw [e5] at e6
      cases e6
      exact absurd rfl (hnf f)
    · exact ⟨_, _, rfl, (fun f h => nomatch h), stop1.2.1, (fun n' h => nomatch h), (fun _ _ _ n' h => nomatch h)⟩

/-- **C116.** An application uploads a file piece by piece, each piece with a PATCH request that says where it belongs, over a connection of its own, and goes on from where the server
says it is when it can learn that from the response. Whatever fails, and when ever the server processes which of the messages it has found (`hist`: in any order, any
number of times, those of given up connections much later): no call faults; what is stored is at every time (`done`) a beginning of the file; and if what the
server says is true and the application believes to be at the end, then the file is stored. (`.more`: a call did not return within `fuel` steps.) -/
theorem C116_upload {m : Mem} {tries : List (Try σ)} (hset : ∀ a ∈ tries, Setup true httpParser cfg a.transport a.send a.recv h rb (some bb) a.size resp b m)
    (hpa : path ≠ []) (hclp : CleanValue path) (hfl : sendFl.toNat.testBit 0 = false) (hfile : file.length ≤ 10 ^ 20) (hsize : h.bufferLen + 39 < 2 ^ cfg.sizeBits)
    (hsize' : h.bufferLen + (requestBlock (requestLine (ascii "PATCH") path) (documentedHeaders cfg.userAgent host fl.toNat)).length < 2 ^ cfg.sizeBits)
    (fuel : Nat) {out : Run Nat} {logs : List (List (Ev PLog))} (e : upload httpParser cfg fuel path host fl sendFl file bb tries 0 [] h resp m = (out, logs))
    {hist : List Message} (hhist : ∀ m ∈ hist, Found logs m) :
    (out = .more ∨ ∃ n, out = .ok n ∧ n ≤ file.length) ∧ (∀ done, done <+: hist → storedAfter path done <+: file) ∧
    (¬ headersOnly resp.respOptionFlags → (∀ a ∈ tries, FlakyServer a.serves got rest a.send a.recv resp ∧ a.Truthful path hist ∧ got a.start = []) →
      out = .ok file.length → storedAfter path hist = file) := by
  obtain ⟨out', logs', e', h1, h2, h3, h4⟩ := upload_run (got := got) (rest := rest) (hist := hist) hpa hclp hfl hfile hsize hsize' fuel tries 0 [] h resp m (Nat.zero_le _)
    (fun m hm => by obtain ⟨_, h, _⟩ := hm; cases h) rfl hset
  rw [e] at e'
  cases e'
  have hpieces : ∀ m ∈ hist, IsPiece path file m := fun m hm => h2 m (hhist m hm)
  refine ⟨?_, ?_, ?_⟩
  · rcases out with n | f | _
    · exact .inr ⟨n, rfl, h3 n rfl⟩
    · exact absurd rfl (h1 f)
    · exact .inl rfl
  · intro done hd
    obtain ⟨h5, h6⟩ := stored_mono hpieces hd
    exact h5.trans h6
  · intro hflag hS ho
    obtain ⟨done, hd, hl⟩ := h4 hflag hS ⟨[], List.nil_prefix, rfl⟩ _ ho
    obtain ⟨h5, h6⟩ := stored_mono hpieces hd
    have h7 := (h5.trans h6).eq_of_length hl
    rw [h7] at h5
    exact (h6.eq_of_length (Nat.le_antisymm h6.length_le h5.length_le))

/-! ### Non-vacuity: any file, any server that is at any place, over connections that fail at any time -/

/-- The server has appended the piece and has `k` bytes now. -/
def appended (k : Nat) : Response := ⟨.v11, 204, ascii "No Content", [⟨ascii "upload-offset", ascii " ", decimal k⟩], .none⟩

/-- The piece does not belong here: the server has `k` bytes. -/
def elsewhere (k : Nat) : Response :=
  ⟨.v11, 409, ascii "Conflict", [⟨ascii "content-length", ascii " ", ascii "0"⟩, ⟨ascii "UPLOAD-offset", ascii " ", decimal k⟩], .length []⟩

/-- A server that has `before` bytes and will have `after` bytes when it gets the missing piece. -/
def upServe (path : Bytes) (before after : Nat) (q : Bytes) : Bytes :=
  match readMessage q with
  | some (m, []) =>
    if m.headers.filter (·.1 == ascii "Upload-Offset") = [(ascii "Upload-Offset", decimal before)] ∧ before + m.body.length = after ∧ before ≠ after then
      (appended after).bytes
    else (elsewhere before).bytes
  | _ => []

theorem decimal_fieldOk {name : Bytes} (hn : name ≠ [] ∧ ∀ c ∈ name, isTokenChar c = true) (k : Nat) : FieldOk ⟨name, ascii " ", decimal k⟩ := by
  have h1 : ∀ x : UInt8, x.toNat < 48 ∨ 57 < x.toNat → (decimal k).head? ≠ some x := by
    intro x hx h
    exact digit_of (List.mem_of_head? h) hx rfl
  exact ⟨hn, show ∀ c ∈ ascii " ", c = 32 ∨ c = 9 by decide,
    fun c hc => ⟨digit_of hc (by decide), digit_of hc (by decide), digit_of hc (by decide)⟩, h1 32 (by decide), h1 9 (by decide)⟩

theorem appended_ok (k : Nat) : (appended k).Ok false where
  code := by show 100 ≤ 204 ∧ 204 ≤ 999; decide
  reason := show ∀ c ∈ ascii "No Content", c ≠ 13 ∧ c ≠ 10 by decide +kernel
  fields := fun f hf => by
    obtain rfl : f = ⟨ascii "upload-offset", ascii " ", decimal k⟩ := by simpa [appended] using hf
    exact decimal_fieldOk ⟨by decide, by decide +kernel⟩ k
  content := by
    have h6 : (appended k).lengths = [] := by
      show List.filter _ [_] = _
      rw [List.filter_cons_of_neg (by rw [decide_eq_true_eq]; show ¬ ((ascii "upload-offset").map lowerAscii = ascii "content-length"); decide +kernel)]
      rfl
    refine ⟨.inr ⟨.inr (.inl rfl), ?_, ?_⟩, .inl h6⟩
    · unfold Response.statedLength
      rw [h6]
    · rintro ⟨f, hf, h1, _⟩
      obtain rfl : f = ⟨ascii "upload-offset", ascii " ", decimal k⟩ := by simpa [appended] using hf
      revert h1
      show ¬ (ascii "upload-offset").map lowerAscii = ascii "transfer-encoding"
      decide +kernel

theorem elsewhere_ok (k : Nat) : (elsewhere k).Ok false where
  code := by show 100 ≤ 409 ∧ 409 ≤ 999; decide
  reason := show ∀ c ∈ ascii "Conflict", c ≠ 13 ∧ c ≠ 10 by decide +kernel
  fields := fun f hf => by
    simp only [elsewhere, List.mem_cons, List.not_mem_nil, or_false] at hf
    rcases hf with rfl | rfl
    · exact fieldOk_of (by decide +kernel)
    · exact decimal_fieldOk ⟨by decide, by decide +kernel⟩ k
  content := by
    have h6 : (elsewhere k).lengths = [⟨ascii "content-length", ascii " ", ascii "0"⟩] := by
      show List.filter _ [_, _] = _
      rw [List.filter_cons_of_pos (by rw [decide_eq_true_eq]; show (ascii "content-length").map lowerAscii = ascii "content-length"; decide +kernel),
        List.filter_cons_of_neg (by rw [decide_eq_true_eq]; show ¬ ((ascii "UPLOAD-offset").map lowerAscii = ascii "content-length"); decide +kernel)]
      rfl
    refine ⟨rfl, ⟨_, h6, by decide +kernel⟩, ?_, ?_⟩
    · decide
    · intro g hg
      simp only [elsewhere, List.mem_cons, List.not_mem_nil, or_false] at hg
      rcases hg with rfl | rfl
      · show ¬ (ascii "content-length").map lowerAscii = ascii "transfer-encoding"; decide +kernel
      · show ¬ (ascii "UPLOAD-offset").map lowerAscii = ascii "transfer-encoding"; decide +kernel

/-- Accepts at most 20 bytes; fails when the number of send calls is used up. -/
def upSend (path : Bytes) (before after : Nat) : FlakyEnv → Bytes → Int × FlakyEnv := fun s d =>
  if s.2.2.2.1 = 0 then (-1, s.1 + 1, s.2.1, upServe path before after s.2.1, 0, s.2.2.2.2)
  else (((min 20 d.length : Nat) : Int), s.1 + 1, s.2.1 ++ d.take 20, upServe path before after (s.2.1 ++ d.take 20), s.2.2.2.1 - 1, s.2.2.2.2)

/-- An attempt to send `size` bytes to a server that has `before` bytes, on a connection that breaks after so many calls of send and of receive. -/
def exTry (path : Bytes) (size before after sends recvs : Nat) : Try FlakyEnv :=
  ⟨size, upSend path before after, flakyRecv, (0, [], [], sends, recvs), fun q x => x = upServe path before after q⟩

theorem upServer (path : Bytes) (before after q n : Nat) :
    FlakyServer (fun q x => x = upServe path before after q) (fun s => s.2.1) (fun s => s.2.2.1) (upSend path before after) flakyRecv (flakyResp q n) where
  takes := by
    intro s d
    unfold upSend
    split
    · simp
    · dsimp only
      congr 1
      rcases Nat.le_total 20 d.length with h | h
      · rw [Nat.min_eq_left h]; rfl
      · rw [Nat.min_eq_right h, List.take_of_length_le h, List.take_of_length_le (by omega)]
  answers := by
    intro s d
    unfold upSend
    split <;> rfl
  delivers := (flakyServer [] q n).delivers
  clock := (flakyServer [] q n).clock
  header := (flakyServer [] q n).header

theorem exTry_truthful (path : Bytes) (hist : List Message) (size i j sends recvs : Nat) :
    (exTry path size (storedAfter path (hist.take i)).length (storedAfter path (hist.take j)).length sends recvs).Truthful path hist := by
  rintro q x m hx hq _
  obtain rfl : x = upServe path _ _ q := hx
  unfold upServe
  rw [hq]
  dsimp only
  split
  · exact ⟨appended _, appended_ok _, rfl, fun _ => ⟨_, hist.take j, ⟨[], _, [], rfl,
      (C56_compare (s := ascii "Upload-Offset") (t := ascii "upload-offset") (n := 13) (by decide) (by decide)).2.1 (by decide +kernel), (fun g hg => nomatch hg), rfl⟩,
      List.take_prefix _ _, readDecimal_decimal _⟩⟩
  · refine ⟨elsewhere _, elsewhere_ok _, rfl, fun _ => ⟨_, hist.take i, ⟨[_], _, [], rfl,
      (C56_compare (s := ascii "Upload-Offset") (t := ascii "UPLOAD-offset") (n := 13) (by decide) (by decide)).2.1 (by decide +kernel), ?_, rfl⟩,
      List.take_prefix _ _, readDecimal_decimal _⟩⟩
    intro g hg
    rw [List.mem_singleton] at hg
    subst hg
    rintro ⟨h, _⟩
    revert h
    show ¬ (ascii "Upload-Offset").length = (ascii "content-length").length
    decide

theorem upSetup (path : Bytes) (size before after sends recvs q n : Nat) (hs : size ≤ 5) (hq : q = 0 ∨ q = 1) (hn : 0 < n ∧ n ≤ 200) :
    Setup true httpParser exCfg (exTry path size before after sends recvs).transport (exTry path size before after sends recvs).send
      (exTry path size before after sends recvs).recv eHdr 0 (some 2) size (flakyResp q n) q xMem :=
  have hx := peerCallPre [] [] q hq
  { parser := hx.parser, hasSend := rfl, hasRecv := rfl
    sendOk := (fun s d => by show (upSend path before after s d).1 ≤ _; unfold upSend; split <;> dsimp only <;> omega)
    recvOk := (fun s len => by
      show (flakyRecv s len).1 ≤ _ ∧ _
      unfold exTry flakyRecv
      dsimp only
      split
      · exact ⟨by dsimp only; omega, by dsimp only; rw [List.length_take]; omega⟩
      · exact ⟨by dsimp only; omega, by dsimp only; rw [List.length_take]; omega⟩)
    agent := by decide, reqBuf := rfl, reqRoom := by decide +kernel, reqSize := by decide
    buf := rfl, pos := hn.1, room := (Nat.le_trans hn.2 hx.room), size := (Nat.lt_of_le_of_lt hn.2 (by decide))
    callback := (fun h => nomatch h), bodyNone := (fun h => nomatch h)
    bodyRoom := (fun bb h => by cases h; exact ⟨Nat.le_trans hs (by decide +kernel), by decide⟩), bodyMax := by omega }

/-- Any file, any number of attempts `(size, i, j, sends, recvs)`, in which the server has processed `i` or will have processed `j` of the messages in `hist`. -/
theorem C116_any_tries (file : Bytes) (hfile : file.length ≤ 10 ^ 20) (hist : List Message) (ps : List (Nat × Nat × Nat × Nat × Nat)) (hps : ∀ p ∈ ps, p.1 ≤ 5)
    (q n : Nat) (hq : q = 0 ∨ q = 1) (hn : 0 < n ∧ n ≤ 200) (fuel : Nat) {out : Run Nat} {logs : List (List (Ev PLog))}
    (e : upload httpParser exCfg fuel (ascii "/up") (ascii "example.com") 1 0 file 2
      (ps.map fun p => exTry (ascii "/up") p.1 (storedAfter (ascii "/up") (hist.take p.2.1)).length (storedAfter (ascii "/up") (hist.take p.2.2.1)).length p.2.2.2.1 p.2.2.2.2)
      0 [] eHdr (flakyResp q n) xMem = (out, logs)) (hhist : ∀ m ∈ hist, Found logs m) :
    (out = .more ∨ ∃ n, out = .ok n ∧ n ≤ file.length) ∧ (∀ done, done <+: hist → storedAfter (ascii "/up") done <+: file) ∧
    (out = .ok file.length → storedAfter (ascii "/up") hist = file) := by
  obtain ⟨h1, h2, h3⟩ := C116_upload (got := fun s => s.2.1) (rest := fun s => s.2.2.1) (rb := 0) (b := q) (hist := hist)
    (by
      intro a ha
      obtain ⟨p, hp, rfl⟩ := List.mem_map.mp ha
      exact upSetup _ _ _ _ _ _ q n (hps p hp) hq hn)
    (by decide) (by decide) (by decide) hfile (by decide) (by decide +kernel) fuel e hhist
  refine ⟨h1, h2, h3 (show ¬ ((0 : UInt32).toNat % 2 = 1) by decide) ?_⟩
  intro a ha
  obtain ⟨p, hp, rfl⟩ := List.mem_map.mp ha
  exact ⟨upServer _ _ _ q n, exTry_truthful _ hist _ _ _ _ _, rfl⟩

/-- Four attempts to upload nine bytes, with 4, 4, 4 and 5 bytes: sending fails before the body; the piece arrives, but receiving fails; the server answers that it has four bytes
already; the rest. -/
def exUpload : Run Nat × List (List (Ev PLog)) :=
  upload httpParser exCfg 300 (ascii "/up") (ascii "example.com") 1 0 (ascii "abcdefghi") 2
    [exTry (ascii "/up") 4 0 4 7 100, exTry (ascii "/up") 4 0 4 100 2, exTry (ascii "/up") 4 4 4 100 100, exTry (ascii "/up") 5 4 9 100 100]
    0 [] eHdr (flakyResp 1 100) xMem

/-- What the server finds in the call number `i`. -/
def exFound (i : Nat) : Option Message := (exUpload.2[i]?).bind fun evs => (readMessage (accepted evs)).map (·.1)

example : exUpload.1 = .ok 9 ∧ exUpload.2.length = 4 := by constructor <;> decide +kernel

example : exFound 0 = none ∧ (exFound 1).map Message.body = some (ascii "abcd") ∧ exFound 2 = exFound 1 ∧ (exFound 3).map Message.body = some (ascii "efghi") := by
  refine ⟨?_, ?_, ?_, ?_⟩ <;> decide +kernel

theorem exFound_found {i : Nat} {m : Message} (h : exFound i = some m) : Found exUpload.2 m := by
  unfold exFound at h
  cases he : exUpload.2[i]? with
  | none => rw [he] at h; cases h
  | some evs =>
    rw [he] at h
    simp only [Option.bind_some] at h
    cases hr : readMessage (accepted evs) with
    | none => rw [hr] at h; cases h
    | some p =>
      obtain ⟨m', r⟩ := p
      rw [hr] at h
      cases h
      exact ⟨evs, List.mem_of_getElem? he, evs, r, List.prefix_refl _, hr⟩

/-- The first piece is processed when it arrives and once more after the rest. -/
def exHist : List Message := [1, 3, 2].filterMap exFound

/-- All hypotheses of C116 hold in this upload. -/
example : storedAfter (ascii "/up") exHist = ascii "abcdefghi" := by
  have h0 : (storedAfter (ascii "/up") (exHist.take 0)).length = 0 := rfl
  have h1 : (storedAfter (ascii "/up") (exHist.take 1)).length = 4 := by decide +kernel
  have h2 : (storedAfter (ascii "/up") (exHist.take 2)).length = 9 := by decide +kernel
  refine (C116_any_tries (ascii "abcdefghi") (Nat.le_trans (show (ascii "abcdefghi").length ≤ 10 by decide) (by omega)) exHist [(4, 0, 1, 7, 100), (4, 0, 1, 100, 2), (4, 1, 1, 100, 100), (5, 1, 2, 100, 100)] (by decide) 1 100
    (.inr rfl) (by decide) 300 (out := exUpload.1) (logs := exUpload.2) ?_ ?_).2.2 (by decide +kernel)
  · simp only [List.map_cons, List.map_nil, h0, h1, h2]
    show exUpload = _
    exact (Prod.eta _).symm
  · intro m hm
    obtain ⟨i, _, hi⟩ := List.mem_filterMap.mp hm
    exact exFound_found hi

end CoreHttp.Props

import Verif.Props.Upload
import Verif.Props.Stored
import Verif.Props.Recover
import Verif.Spec.Arrive

/-! # C117: an upload is completed when enough attempts are on reliable connections -/

namespace CoreHttp.Props
open CoreHttp Spec Spec.Upload Ref Machine
variable {σ : Type} {cfg : Cfg} {send : σ → Bytes → Int × σ} {recv : σ → Nat → Int × Bytes × σ}
  {resp : Resp σ} {rh h : ReqHeaders} {b rb bb : Nat} {got rest : σ → Bytes} {path host file : Bytes} {fl sendFl : UInt32}

/-- The two calls that build a request succeed if there is room. -/
theorem build_patch {m : Mem} {n : Nat} (hua : cfg.userAgent ≠ []) (hbuf : HasBuf m h rb)
    (hpa : path ≠ []) (hho : host ≠ []) (hclh : CleanValue host) (hcu : fl.toNat.testBit 1 = false → CleanValue cfg.userAgent)
    (hroom : (requestBlock (requestLine (ascii "PATCH") path) (documentedHeaders cfg.userAgent host fl.toNat)).length + 67 ≤ h.bufferLen)
    (hsize : h.bufferLen + h.bufferLen + 2 < 2 ^ cfg.sizeBits) (hn : n < 10 ^ 20) :
    ∃ rh m1, runBuildOps cfg m h (patchOps path host fl n) = .ok ([.success, .success], rh, m1) := by
  have hep : effectivePath (some path) = path := by
    unfold effectivePath
    cases path with
    | nil => exact absurd rfl hpa
    | cons x t => rfl
  have hd : (decimal n).length ≤ 20 := decimal_length_le (k := 19) hn
  have ho1 : OpOk cfg h.bufferLen (.init (some ⟨some (ascii "PATCH"), some path, some host, fl⟩)) := ⟨by
    show h.bufferLen + (requestBlock (requestLine (ascii "PATCH") (effectivePath (some path))) (documentedHeaders cfg.userAgent host fl.toNat)).length < _
    rw [hep]; omega, trivial⟩
  obtain ⟨st, h1, m1, e1, hiff, _⟩ := C02_init_success_iff (cfg := cfg) (m := m) (h := h) (b := rb) (me := ascii "PATCH") (ho := host) (path := some path) (flags := fl) hua hbuf
    (by decide) hho (by rw [hep]; omega)
  have hst : st = .success := hiff.2 ⟨by rw [hep]; omega, hclh, hcu⟩
  subst hst
  obtain ⟨sts, h1', m1', e, _, hb1, hbl1, _, _, ha⟩ := runBuildOps_spec hua [.init (some ⟨some (ascii "PATCH"), some path, some host, fl⟩)] m h rb none hbuf.1 hbuf.2
    (fun op hop => by simp only [List.mem_cons, List.not_mem_nil, or_false] at hop; rw [hop]; exact ho1)
  have e0 : runBuildOps cfg m h [.init (some ⟨some (ascii "PATCH"), some path, some host, fl⟩)] = .ok ([.success], h1, m1) := by
    simp only [runBuildOps, runBuildOp, e1]; rfl
  rw [e0] at e
  cases e
  obtain ⟨hB, _, _⟩ := ha (by simp) (requestLine (ascii "PATCH") (effectivePath (some path))) (documentedHeaders cfg.userAgent host fl.toNat) rfl
  rw [hep] at hB
  have hl13 : (ascii "Upload-Offset").length = 13 := by decide
  have hstrip : (stripBlankLine (headerBlock m1 h1)).length + 2 =
      (requestBlock (requestLine (ascii "PATCH") path) (documentedHeaders cfg.userAgent host fl.toNat)).length := by
    rw [hB.eq]
    have hne : documentedHeaders cfg.userAgent host fl.toNat ≠ [] := by simp [documentedHeaders]
    unfold requestBlock
    rw [strip_crlf]
    · simp [crlf]; omega
    · obtain ⟨pre, p, hp⟩ : ∃ pre p, documentedHeaders cfg.userAgent host fl.toNat = pre ++ [p] :=
        ⟨_, _, (List.dropLast_concat_getLast hne).symm⟩
      rw [hp, headerLines_append, ← List.append_assoc]
      have : headerLines [p] = headerLine p.1 p.2 := by simp [headerLines]
      rw [this]
      exact crlf_suffix_headerLine _ _ _
  have hle1 := hB.le
  obtain ⟨st2, h2, m2, e2, _, hc2⟩ := C07_no_injection (cfg := cfg) (m := m1) (h := h1) (b := rb) (f := ascii "Upload-Offset") (v := decimal n)
    ⟨⟨hB.buf, hB.real⟩, hB.le, by decide, (by
      intro h0
      have := readDecimal_decimal n
      rw [h0] at this
      cases this), by omega⟩
  have hst2 : st2 = .success := (hc2 (by rw [hbl1]; omega)).2.mpr
    ⟨(show CleanField (ascii "Upload-Offset") by decide), fun c hc => ⟨digit_of hc (by decide), digit_of hc (by decide)⟩⟩
  subst hst2
  refine ⟨h2, m2, ?_⟩
  unfold patchOps
  simp only [runBuildOps, runBuildOp, e1]
  show (HTTPClient_AddHeader cfg m1 (some h1) (some (ascii "Upload-Offset")) (some (decimal n)) >>= _) >>= _ = _
  rw [e2]
  rfl

/-- One attempt, when the call returns. -/
theorem upload_step {a : Try σ} {n : Nat} {m : Mem} {fuel : Nat}
    (hset : Setup true httpParser cfg a.transport a.send a.recv h rb (some bb) a.size resp b m)
    (hret : TriesReturn cfg fuel h resp [a]) (hflag : ¬ headersOnly resp.respOptionFlags) (hfl : sendFl.toNat.testBit 0 = false)
    (hpa : path ≠ []) (hclp : CleanValue path) (hho : host ≠ []) (hclh : CleanValue host) (hcu : fl.toNat.testBit 1 = false → CleanValue cfg.userAgent)
    (hroom : (requestBlock (requestLine (ascii "PATCH") path) (documentedHeaders cfg.userAgent host fl.toNat)).length + 67 ≤ h.bufferLen)
    (hsize : h.bufferLen + h.bufferLen + 2 < 2 ^ cfg.sizeBits) (hfile : file.length ≤ 10 ^ 20) (hn : n < file.length) :
    ∃ n2 evs rh2 resp2 m2, (∀ as logs, upload httpParser cfg fuel path host fl sendFl file bb (a :: as) n logs h resp m =
        upload httpParser cfg fuel path host fl sendFl file bb as n2 (logs ++ [evs]) rh2 resp2 m2) ∧
      SetUp (withClock resp) resp2 ∧ rh2.pBuffer = some rb ∧ rh2.bufferLen = h.bufferLen ∧ (∀ i, (m2 i).length = (m i).length) ∧
      ∀ (hist : List Message) (i : Nat), a.Prompt path hist i got rest resp → (∀ mm r, readMessage (accepted evs) = some (mm, r) → hist[i]? = some mm) →
        (storedAfter path (hist.take (i + 1))).length ≤ file.length →
        n2 = (storedAfter path (hist.take (i + 1))).length ∧ ∃ mm, hist[i]? = some mm ∧ mm.line = patchLine path ∧
          mm.headers.filter (·.1 == ascii "Upload-Offset") = [(ascii "Upload-Offset", decimal n)] ∧ mm.body = (file.drop n).take a.size := by
  generalize hpc : (file.drop n).take a.size = piece
  have hpl : piece.length ≤ a.size := by rw [← hpc, List.length_take]; omega
  have hroomB := (hset.bodyRoom bb rfl).1
  have hmaxB := hset.bodyMax
  have hputl := put_length (m := m) (bb := bb) (piece := piece) (by omega)
  have hset0 : Setup true httpParser cfg a.transport a.send a.recv h rb (some bb) piece.length resp b (put m bb piece) :=
    { hset with
      reqRoom := by rw [hputl]; exact hset.reqRoom
      room := by rw [hputl]; exact hset.room
      bodyNone := (fun h => nomatch h)
      bodyRoom := (fun b' hb' => by cases hb'; rw [hputl]; exact ⟨by omega, (hset.bodyRoom bb rfl).2⟩)
      bodyMax := by omega }
  have hep : effectivePath (some path) = path := by
    unfold effectivePath
    cases path with
    | nil => exact absurd rfl hpa
    | cons x t => rfl
  have hops : ∀ op ∈ patchOps path host fl n, OpOk cfg h.bufferLen op := by
    intro op hop
    unfold patchOps at hop
    rcases List.mem_cons.mp hop with rfl | hop
    · refine ⟨?_, trivial⟩
      show h.bufferLen + (requestBlock (requestLine (ascii "PATCH") (effectivePath (some path))) (documentedHeaders cfg.userAgent host fl.toNat)).length < _
      rw [hep]; omega
    · simp only [List.mem_cons, List.not_mem_nil, or_false] at hop
      subst hop
      refine ⟨?_, trivial⟩
      show h.bufferLen + ((ascii "Upload-Offset").length + (decimal n).length + 6) < _
      have h2 : (ascii "Upload-Offset").length = 13 := by decide
      have h3 : (decimal n).length ≤ 20 := decimal_length_le (k := 19) (by omega)
      omega
  obtain ⟨rh, m1, e⟩ := build_patch (m := put m bb piece) (n := n) hset0.agent ⟨hset0.reqBuf, hset0.reqRoom⟩ hpa hho hclh hcu hroom hsize (by omega)
  have hall : ([.success, .success] : List Status).all (· == .success) = true := by decide
  obtain ⟨hp, hbl1, hlen1, hreq, hbd, q, hB, hq, hu, hline, hh⟩ := patch_request (T := a.transport) hset0 hpa hclp hops hall e
  rw [put_body] at hbd
  have hnm : (HTTPClient_Send httpParser cfg fuel (some a.transport) (some rh) (some bb) piece.length (some resp) sendFl ⟨a.start, m1, []⟩).1 ≠ .more := by
    rcases hret with ⟨f, now, r1, r2, r3, r4, r5⟩ | ⟨r1, r2, r3, r4⟩
    · obtain ⟨q1, q2, q3⟩ := r3 a (by simp)
      have q4 := Nat.mul_le_mul_right (cfg.sendTimeoutMs.toNat + 1) hpl
      exact C61_terminates (w := ⟨a.start, m1, []⟩) hp r1 r2 q1 q2 (by rw [hbl1]; exact r4) (by omega) r5
    · have := r4 a (by simp)
      exact C61_terminates_noclock (w := ⟨a.start, m1, []⟩) hp r1 (by omega) (by omega) r3
  have hfu : h.bufferLen ≤ fuel ∧ resp.bufferLen < fuel ∧ a.size ≤ fuel := by
    rcases hret with ⟨f, now, r1, r2, r3, r4, r5⟩ | ⟨r1, r2, r3, r4⟩
    · have q1 := Nat.le_mul_of_pos_right h.bufferLen (show 0 < cfg.sendTimeoutMs.toNat + 1 by omega)
      have q2 := Nat.le_mul_of_pos_right resp.bufferLen (show 0 < cfg.recvTimeoutMs.toNat + 2 by omega)
      have q3 := Nat.le_mul_of_pos_right a.size (show 0 < cfg.sendTimeoutMs.toNat + 1 by omega)
      have q4 := (r3 a (by simp)).2.2
      omega
    · have := r4 a (by simp)
      omega
  -- what happens with a reliable connection
  have hgoodStep : ∀ (hist : List Message) (i : Nat) st rh' resp2 w', HTTPClient_Send httpParser cfg fuel (some a.transport) (some rh) (some bb) piece.length (some resp) sendFl ⟨a.start, m1, []⟩ =
        (.ok (st, some rh', some resp2), w') → a.Prompt path hist i got rest resp →
      (∀ mm r, readMessage (accepted w'.log) = some (mm, r) → hist[i]? = some mm) →
      st = .success ∧ (resp2.statusCode = 204 ∨ resp2.statusCode = 409) ∧
      (∃ l k w2, HTTPClient_ReadHeader httpParser (some resp2) (some (ascii "Upload-Offset")) (some none) (some 0) w' = (.ok (.success, some l, some k), w2) ∧
        readDecimal (valueAt w2.mem resp2 l k) = some (storedAfter path (hist.take (i + 1))).length) ∧
      ∃ mm, hist[i]? = some mm ∧ mm.line = patchLine path ∧
          mm.headers.filter (·.1 == ascii "Upload-Offset") = [(ascii "Upload-Offset", decimal n)] ∧ mm.body = piece := by
    intro hist i st rh' resp2 w' e5 hgood hplace
    obtain ⟨hk, hgs, serve, hS, hans⟩ := hgood
    have hwire : readMessage (wireRequest m1 rh (some bb) piece.length sendFl) = some (⟨q.line, q.headers ++ autoLength piece.length sendFl.toNat, piece⟩, []) := by
      have hr := read_length (n := piece.length) (fl := sendFl.toNat) hq hu hfl (bodyOf_length hp) []
      rw [List.append_nil, ← wire_described (n := piece.length) (flags := sendFl) hq hB, hbd] at hr
      unfold wireRequest
      rw [hbd]
      exact hr
    have hfit : (wireHeaders (headerBlock m1 rh) piece.length sendFl.toNat).length ≤ rh.bufferLen := by
      have h1 : (headerBlock m1 rh).length ≤
          (requestBlock (requestLine (ascii "PATCH") path) (documentedHeaders cfg.userAgent host fl.toNat)).length + 37 := by
        have h3 : (decimal n).length ≤ 20 := decimal_length_le (k := 19) (by omega)
        have hl13 : (ascii "Upload-Offset").length = 13 := by decide
        rw [hB]
        unfold Described.block
        rw [hh]
        unfold requestBlock
        rw [headerLines_append]
        have h6 : (requestLine q.method q.path).length = (requestLine (ascii "PATCH") path).length := by
          have h7 := congrArg List.length hline
          have e4 : ascii "PATCH " = ascii "PATCH" ++ [32] := by decide
          unfold Described.line patchLine at h7
          rw [e4] at h7
          unfold requestLine
          simp only [List.length_append, show (ascii " ").length = 1 by decide, show (ascii " HTTP/1.1").length = 9 by decide,
            show (ascii "HTTP/1.1").length = 8 by decide, List.length_cons, List.length_nil, crlf] at h7 ⊢
          omega
        have h5 : headerLines [(ascii "Upload-Offset", decimal n)] = headerLine (ascii "Upload-Offset") (decimal n) := by simp [headerLines]
        rw [h5]
        simp only [headerLine, List.length_append, List.length_cons, List.length_nil, crlf]
        omega
      have h2 := strip_length_le (headerBlock m1 rh)
      have h3 : (decimal piece.length).length ≤ 10 := decimal_length_le (k := 9) (by omega)
      have h4 : (ascii "Content-Length").length = 14 := by decide
      unfold wireHeaders
      split
      · simp only [headerLine, List.length_append, List.length_cons, List.length_nil, crlf]
        omega
      · omega
    have hP := server_peer hS (wireRequest m1 rh (some bb) piece.length sendFl)
    obtain ⟨r, ok, hr, hrs, hd⟩ := hans _ _ hwire hline
    rw [hr] at hP
    obtain ⟨rh3, resp3, w3, evs, e6, hl, _, _, hacc, _, g⟩ := C58_exchange (w := ⟨a.start, m1, []⟩) (flags := sendFl) hp ok hreq hflag hrs hfit hP hgs
      (fuel := fuel) (by omega) (by omega) hfu.2.1
    rw [e5] at e6
    cases e6
    rw [List.nil_append] at hl
    have hm := hplace _ _ (by rw [hl, hacc]; exact hwire)
    obtain ⟨hcode, v, hv, hnum⟩ := hd hm
    obtain ⟨rh4, resp4, e7, e8, ⟨u1, u2, u3, u4, u5⟩, _⟩ := send_leaves (w := ⟨a.start, m1, []⟩) hp e5
    cases e8
    have hbuf : resp2.pBuffer = some b := u1.trans hset.buf
    have u2' : resp2.bufferLen = resp.bufferLen := u2
    have hroom2 : resp2.bufferLen ≤ (w'.mem b).length := by
      obtain ⟨_, w2, e6, _, _, h3, _⟩ := C60_safe (w := ⟨a.start, m1, []⟩) (flags := sendFl) hp fuel
      rw [e5] at e6
      cases e6
      rw [u2', h3 b]; exact hp.room
    have hhl : r.head.length ≤ resp2.bufferLen := by
      have h1 : r.bytes.length = r.head.length + r.content.bytes.length := by simp [Response.bytes]
      omega
    obtain ⟨loc, len, w4, e8, hm4, hv4⟩ := lookup_value (w := w') hbuf hroom2 ok hhl (g.head b hbuf) (show ascii "Upload-Offset" ≠ [] by decide) hv
    refine ⟨rfl, by rw [g.statusCode]; exact hcode, ⟨loc, len, w4, e8, by rw [hm4, hv4]; exact hnum⟩, _, hm, hline, ?_, rfl⟩
    dsimp only
    rw [hh]
    exact one_offset cfg.userAgent host fl.toNat n piece.length sendFl.toNat
  generalize e5 : HTTPClient_Send httpParser cfg fuel (some a.transport) (some rh) (some bb) piece.length (some resp) sendFl ⟨a.start, m1, []⟩ = out at hnm hgoodStep
  obtain ⟨res, w'⟩ := out
  rcases res with ⟨st, orh, oresp⟩ | f | _
  · obtain ⟨rh', resp2, rfl, rfl, hsu2, hb2', hbl2, _, _, _⟩ := send_leaves (w := ⟨a.start, m1, []⟩) hp e5
    have hlen : ∀ i, (w'.mem i).length = (m i).length := by
      intro i
      obtain ⟨_, w2, e6, _, _, h3, _⟩ := C60_safe (w := ⟨a.start, m1, []⟩) (flags := sendFl) hp fuel
      rw [e5] at e6
      cases e6
      rw [h3 i, ← hputl i]; exact hlen1 i
    have hpre : ∀ as logs, upload httpParser cfg fuel path host fl sendFl file bb (a :: as) n logs h resp m =
        if st = .success ∧ (resp2.statusCode = 204 ∨ resp2.statusCode = 409) then
          match HTTPClient_ReadHeader httpParser (some resp2) (some (ascii "Upload-Offset")) (some none) (some 0) w' with
          | (.ok (.success, some loc, some len), w2) =>
            upload httpParser cfg fuel path host fl sendFl file bb as (goOn file.length n (valueAt w2.mem resp2 loc len)) (logs ++ [w'.log]) rh' resp2 w2.mem
          | (.ok _, w2) => upload httpParser cfg fuel path host fl sendFl file bb as n (logs ++ [w'.log]) rh' resp2 w2.mem
          | (.fault f, _) => (.fault f, logs ++ [w'.log])
          | (.more, _) => (.more, logs ++ [w'.log])
        else upload httpParser cfg fuel path host fl sendFl file bb as n (logs ++ [w'.log]) rh' resp2 w'.mem := by
      intro as logs
      rw [upload, if_pos hn]
      dsimp only
      rw [hpc, e]
      dsimp only
      rw [if_pos hall, e5]
      rfl
    have bad : ¬ (st = .success ∧ (resp2.statusCode = 204 ∨ resp2.statusCode = 409)) → ∀ (hist : List Message) (i : Nat), a.Prompt path hist i got rest resp →
        (∀ mm r, readMessage (accepted w'.log) = some (mm, r) → hist[i]? = some mm) → False := by
      intro hno hist i hg hpl
      obtain ⟨h1, h2, _⟩ := hgoodStep hist i st rh' resp2 w' rfl hg hpl
      exact hno ⟨h1, h2⟩
    by_cases hok : st = .success ∧ (resp2.statusCode = 204 ∨ resp2.statusCode = 409)
    case neg =>
      exact ⟨n, w'.log, rh', resp2, w'.mem, fun as logs => by rw [hpre, if_neg hok], hsu2, hb2', by rw [hbl2, hbl1], hlen,
        fun hist i hg hpl _ => (bad hok hist i hg hpl).elim⟩
    have hbuf : resp2.pBuffer = some b := hsu2.1.trans hset.buf
    have u2' : resp2.bufferLen = resp.bufferLen := hsu2.2.1
    have hroom2 : resp2.bufferLen ≤ (w'.mem b).length := by rw [u2', hlen]; exact hset.room
    obtain ⟨st2, l2, k2, w2, e6, hm2, _⟩ := C55_safe (w := w') (P := httpParser) (strict := true) (name := ascii "Upload-Offset")
      ⟨hset.parser, hbuf, by rw [u2']; exact hset.pos, hroom2, by decide⟩ none 0
    by_cases hst2 : st2 = .success
    · subst hst2
      refine ⟨goOn file.length n (valueAt w2.mem resp2 l2 k2), w'.log, rh', resp2, w2.mem, fun as logs => by rw [hpre, if_pos hok, e6]; try rfl, hsu2, hb2',
        by rw [hbl2, hbl1], (by rw [hm2]; exact hlen), ?_⟩
      intro hist i hg hpl hle
      obtain ⟨_, _, ⟨l, k, w3, e7, hnum⟩, hmm⟩ := hgoodStep hist i st rh' resp2 w' rfl hg hpl
      rw [e6] at e7
      cases e7
      refine ⟨?_, hmm⟩
      unfold goOn
      rw [hnum]
      dsimp only
      rw [if_pos hle]
    · refine ⟨n, w'.log, rh', resp2, w2.mem, fun as logs => ?_, hsu2, hb2', by rw [hbl2, hbl1], (by rw [hm2]; exact hlen), ?_⟩
      · rw [hpre, if_pos hok, e6]
        cases st2 <;> first | exact absurd rfl hst2 | rfl
      · intro hist i hg hpl hle
        obtain ⟨_, _, ⟨l, k, w3, e7, hnum⟩, hmm⟩ := hgoodStep hist i st rh' resp2 w' rfl hg hpl
        rw [e6] at e7
        cases e7
        exact absurd rfl hst2
  · obtain ⟨_, w2, e6, hnf, _⟩ := C60_safe (w := ⟨a.start, m1, []⟩) (flags := sendFl) hp fuel
    rw [e5] at e6
    cases e6
    exact absurd rfl (hnf f)
  · exact absurd rfl hnm

theorem storedAfter_take {hist : List Message} (hms : ∀ m ∈ hist, IsPiece path file m) {i j : Nat} (hij : i ≤ j) :
    (storedAfter path (hist.take i)).length ≤ (storedAfter path (hist.take j)).length ∧ (storedAfter path (hist.take j)).length ≤ file.length := by
  have h1 : hist.take i <+: hist.take j := by
    have := List.take_prefix i (hist.take j)
    rwa [List.take_take, Nat.min_eq_left hij] at this
  obtain ⟨h2, h3⟩ := stored_mono (path := path) (file := file) (hist := hist.take j) (fun m hm => hms m (List.mem_of_mem_take hm)) h1
  exact ⟨h2.length_le, h3.length_le⟩

theorem upload_logs (fuel : Nat) : ∀ (as : List (Try σ)) (n : Nat) (logs : List (List (Ev PLog))) (h' : ReqHeaders) (resp' : Resp σ) (m' : Mem),
    logs <+: (upload httpParser cfg fuel path host fl sendFl file bb as n logs h' resp' m').2 := by
  intro as
  induction as with
  | nil => intro n logs h' resp' m'; exact List.prefix_refl _
  | cons a as ih =>
    intro n logs h' resp' m'
    have ih' : ∀ (evs : List (Ev PLog)) n h' resp' m', logs <+: (upload httpParser cfg fuel path host fl sendFl file bb as n (logs ++ [evs]) h' resp' m').2 :=
      fun evs n h' resp' m' => (List.prefix_append logs [evs]).trans (ih n (logs ++ [evs]) h' resp' m')
    unfold upload
    dsimp only
    repeat' split
    all_goals first | exact List.prefix_refl _ | exact List.prefix_append _ _ | exact ih' _ _ _ _ _

theorem steadyFrom_cons (before : Bool) (p : Option Nat) (l : List (Option Nat)) :
    steadyFrom before (p :: l) = (if before = true ∧ p.isSome = true then 1 else 0) + steadyFrom p.isSome l := rfl

/-- The loop from any attempt on: `k` is the number of messages processed when the latest attempt on a reliable connection was over, `before`: that was the latest attempt. -/
theorem upload_goes_on {hist : List Message} (hpieces : ∀ m ∈ hist, IsPiece path file m)
    (hfl : sendFl.toNat.testBit 0 = false) (hpa : path ≠ []) (hclp : CleanValue path) (hho : host ≠ []) (hclh : CleanValue host)
    (hcu : fl.toNat.testBit 1 = false → CleanValue cfg.userAgent) (hfile : file.length ≤ 10 ^ 20) (fuel : Nat) :
    ∀ (tries : List (Try σ × Option Nat)) (n k : Nat) (before : Bool) (logs : List (List (Ev PLog))) (h' : ReqHeaders) (resp' : Resp σ) (m' : Mem)
      (out : Run Nat) (logs' : List (List (Ev PLog))),
      (∀ p ∈ tries, Setup true httpParser cfg p.1.transport p.1.send p.1.recv h' rb (some bb) p.1.size resp' b m') →
      TriesReturn cfg fuel h' resp' (tries.map (·.1)) → ¬ headersOnly resp'.respOptionFlags →
      (requestBlock (requestLine (ascii "PATCH") path) (documentedHeaders cfg.userAgent host fl.toNat)).length + 67 ≤ h'.bufferLen →
      h'.bufferLen + h'.bufferLen + 2 < 2 ^ cfg.sizeBits →
      (∀ a i, (a, some i) ∈ tries → a.Prompt path hist i got rest resp') →
      (∀ a, (a, none) ∈ tries → FlakyServer a.serves got rest a.send a.recv resp' ∧ a.Truthful path hist ∧ got a.start = []) →
      (tries.filterMap (·.2)).Pairwise (· < ·) → (∀ i ∈ tries.filterMap (·.2), k ≤ i) →
      upload httpParser cfg fuel path host fl sendFl file bb (tries.map (·.1)) n logs h' resp' m' = (out, logs') →
      (∀ j a i evs m r, tries[j]? = some (a, some i) → logs'[logs.length + j]? = some evs → readMessage (accepted evs) = some (m, r) → hist[i]? = some m) →
      n ≤ file.length → (∃ done, done <+: hist ∧ (storedAfter path done).length = n) →
      (before = true → n = (storedAfter path (hist.take k)).length) → ((storedAfter path (hist.take k)).length = file.length → n = file.length) →
      file.length ≤ (storedAfter path (hist.take k)).length + steadyFrom before (tries.map (·.2)) →
      out = .ok file.length ∧ ∃ done, done <+: hist ∧ (storedAfter path done).length = file.length := by
  intro tries
  induction tries with
  | nil =>
    intro n k before logs h' resp' m' out logs' _ _ _ _ _ _ _ _ _ e _ hn hdone _ hfull henough
    cases e
    have h1 := (storedAfter_take hpieces (Nat.le_refl k)).2
    have h2 : file.length ≤ (storedAfter path (hist.take k)).length := henough
    obtain rfl := hfull (by omega)
    exact ⟨rfl, hdone⟩
  | cons p tries ih =>
    intro n k before logs h' resp' m' out logs' hset hret hflag hroom hsize hgood hbad hord hk e hplace hn hdone hbefore hfull henough
    obtain ⟨a, o⟩ := p
    by_cases hlt : n < file.length
    case neg =>
      obtain rfl : n = file.length := by omega
      rw [List.map_cons, upload, if_neg hlt] at e
      cases e
      exact ⟨rfl, hdone⟩
    have hretA : TriesReturn cfg fuel h' resp' [a] := by
      rcases hret with ⟨f, now, r1, r2, r3, r4, r5⟩ | ⟨r1, r2, r3, r4⟩
      · exact .inl ⟨f, now, r1, r2, fun x hx => r3 x (by rw [List.mem_singleton] at hx; subst hx; simp), r4, r5⟩
      · exact .inr ⟨r1, r2, r3, fun x hx => r4 x (by rw [List.mem_singleton] at hx; subst hx; simp)⟩
    have hsetA := hset (a, o) (by simp)
    obtain ⟨n2, evs, rh2, resp2, m2, heq, hsu, hb2, hbl2, hlen, hrel⟩ := upload_step (got := got) (rest := rest) (host := host) (fl := fl) hsetA hretA hflag hfl hpa hclp hho hclh hcu
      hroom hsize hfile hlt
    rw [List.map_cons, heq] at e
    obtain ⟨u1, u2, u3, u4, u5⟩ := hsu
    have hpre := upload_logs (cfg := cfg) (path := path) (host := host) (fl := fl) (sendFl := sendFl) (file := file) (bb := bb) fuel (tries.map (·.1)) n2 (logs ++ [evs]) rh2 resp2 m2
    rw [e] at hpre
    dsimp only at hpre
    have hget : logs'[logs.length]? = some evs := by
      obtain ⟨t, ht⟩ := hpre
      rw [← ht]
      simp
    have hclk : ∀ f, resp2.getTime = .user f → resp'.getTime = .user f := by
      intro f hf
      rw [u4] at hf
      unfold withClock at hf
      dsimp only at hf
      cases hg : resp'.getTime <;> rw [hg] at hf <;> first | exact hf | cases hf
    -- where the application believes to be afterwards
    have hrun := upload_run (got := got) (rest := rest) (hist := hist) (cfg := cfg) (h := h') (b := b) (rb := rb) (bb := bb) (host := host) (fl := fl) (file := file) hpa hclp hfl hfile (by omega) (by omega) fuel [a] n [] h' resp' m' hn
      (fun m hm => by obtain ⟨_, h, _⟩ := hm; cases h) rfl (fun x hx => by rw [List.mem_singleton] at hx; subst hx; exact hsetA)
    obtain ⟨out1, logs1, e1, _, _, g3, g4⟩ := hrun
    rw [heq] at e1
    cases e1
    have hn2 := g3 n2 rfl
    have hnext := ih n2
    have hset2 : ∀ p ∈ tries, Setup true httpParser cfg p.1.transport p.1.send p.1.recv rh2 rb (some bb) p.1.size resp2 b m2 := by
      intro p' hp'
      have hs := hset p' (by simp [hp'])
      exact
      { hs with
        reqBuf := hb2
        reqRoom := by rw [hbl2, hlen]; exact hs.reqRoom
        reqSize := by rw [hbl2]; exact hs.reqSize
        buf := u1.trans hs.buf
        pos := by rw [u2]; exact hs.pos
        room := by rw [u2, hlen]; exact hs.room
        size := by rw [u2]; exact hs.size
        callback := by rw [u3]; exact hs.callback
        bodyRoom := (fun b' hb' => by rw [hlen]; exact hs.bodyRoom b' hb') }
    have hret2 : TriesReturn cfg fuel rh2 resp2 (tries.map (·.1)) := by
      have u2' : resp2.bufferLen = resp'.bufferLen := u2
      rcases hret with ⟨f, now, r1, r2, r3, r4, r5⟩ | ⟨r1, r2, r3, r4⟩
      · refine .inl ⟨f, now, ?_, r2, fun x hx => r3 x (by simp only [List.map_cons, List.mem_cons]; exact .inr hx), by rw [hbl2]; exact r4, by rw [u2']; exact r5⟩
        rw [u4]; unfold withClock; rw [r1]
      · refine .inr ⟨.inr ?_, by rw [hbl2]; exact r2, by rw [u2']; exact r3, fun x hx => r4 x (by simp only [List.map_cons, List.mem_cons]; exact .inr hx)⟩
        rw [u4]; unfold withClock; rcases r1 with r1 | r1 <;> rw [r1]
    have hgood2 : ∀ a i, (a, some i) ∈ tries → a.Prompt path hist i got rest resp2 := by
      intro a' i ha'
      obtain ⟨q1, q2, serve, q3, q4⟩ := hgood a' i (by simp [ha'])
      have u2' : resp2.bufferLen = resp'.bufferLen := u2
      exact ⟨q1, q2, serve, server_after q3 ⟨u1, u2, u3, u4, u5⟩, by rw [u2']; exact q4⟩
    have hbad2 : ∀ a, (a, none) ∈ tries → FlakyServer a.serves got rest a.send a.recv resp2 ∧ a.Truthful path hist ∧ got a.start = [] := by
      intro a' ha'
      obtain ⟨q1, q2⟩ := hbad a' (by simp [ha'])
      exact ⟨{ q1 with clock := fun f hf => q1.clock f (hclk f hf), header := fun c hc => q1.header c (by rw [u3] at hc; exact hc) }, q2⟩
    have hplace2 : ∀ j a i evs' m r, tries[j]? = some (a, some i) → logs'[(logs ++ [evs]).length + j]? = some evs' →
        readMessage (accepted evs') = some (m, r) → hist[i]? = some m := by
      intro j a' i evs' m r h1 h2 h3
      refine hplace (j + 1) a' i evs' m r (by rw [List.getElem?_cons_succ]; exact h1) ?_ h3
      rw [← h2]
      congr 1
      rw [List.length_append, List.length_singleton]
      omega
    have hL := storedAfter_take hpieces (Nat.le_refl k)
    have hne : (storedAfter path (hist.take k)).length ≠ file.length := fun h => by have := hfull h; omega
    rw [List.map_cons, steadyFrom_cons] at henough
    cases o with
    | none =>
      have hh := hbad a (by simp)
      refine ih n2 k false (logs ++ [evs]) rh2 resp2 m2 out logs' hset2 hret2 (by rw [u5]; exact hflag) (by rw [hbl2]; exact hroom) (by rw [hbl2]; exact hsize) hgood2 hbad2
        (by simpa using hord) (fun i hi => hk i (by simpa using hi)) e hplace2 hn2
        (g4 hflag (fun x hx => by rw [List.mem_singleton] at hx; subst hx; exact hh) hdone n2 rfl) (fun h => nomatch h) (fun h => absurd h hne) ?_
      simpa using henough
    | some i =>
      have hh := hgood a i (by simp)
      have hmem : i ∈ ((a, some i) :: tries).filterMap (·.2) := by simp
      have hki := hk i hmem
      have hL2 := storedAfter_take hpieces (show k ≤ i by omega)
      have hL3 := storedAfter_take hpieces (show i ≤ i + 1 by omega)
      obtain ⟨hn2', mm, h1, h2, h3, h4⟩ := hrel hist i hh
        (fun mm r hr => hplace 0 a i evs mm r (by simp) (by rw [Nat.add_zero]; exact hget) hr) hL3.2
      have hord' : (∀ j ∈ tries.filterMap (·.2), i < j) ∧ (tries.filterMap (·.2)).Pairwise (· < ·) := by
        simpa using hord
      refine ih n2 (i + 1) true (logs ++ [evs]) rh2 resp2 m2 out logs' hset2 hret2 (by rw [u5]; exact hflag) (by rw [hbl2]; exact hroom) (by rw [hbl2]; exact hsize) hgood2 hbad2
        hord'.2 (fun j hj => hord'.1 j hj) e hplace2 hn2 ⟨_, List.take_prefix _ _, hn2'.symm⟩ (fun _ => hn2') (fun h => by rw [hn2', h]) ?_
      -- progress
      have hstep : before = true → (storedAfter path (hist.take k)).length + 1 ≤ (storedAfter path (hist.take (i + 1))).length := by
        intro hb
        have hb' := hbefore hb
        rcases Nat.lt_or_ge (storedAfter path (hist.take k)).length (storedAfter path (hist.take i)).length with hc | hc
        · omega
        have hi : (storedAfter path (hist.take i)).length = n := by omega
        have htake : hist.take (i + 1) = hist.take i ++ [mm] := by
          rw [List.take_add_one, h1]; rfl
        have happ : storedAfter path (hist.take i ++ [mm]) = storeStep path (storedAfter path (hist.take i)) mm := by
          unfold storedAfter
          rw [List.foldl_append]
          rfl
        have hst : storeStep path (storedAfter path (hist.take i)) mm = storedAfter path (hist.take i) ++ mm.body := by
          unfold storeStep
          rw [h3]
          dsimp only
          rw [if_pos ⟨h2, by rw [readDecimal_decimal]; exact congrArg some hi.symm⟩]
        rw [htake, happ, hst, List.length_append, h4, List.length_take, List.length_drop]
        have := hh.1
        dsimp only at this ⊢; omega
      cases before with
      | true =>
        have := hstep rfl
        simp only [Option.isSome_some, and_self, if_true] at henough
        omega
      | false =>
        simp only [Bool.false_eq_true, false_and, if_false, Option.isSome_some] at henough
        omega

/-- **C117.** An application uploads a file as in C116. Of the attempts, some are made on reliable connections to a server that answers what it has stored; on the others anything
may fail at any time. (`hist`: the messages that the server processes, in this order, also those of given up connections, whenever they come. `some i`: the attempt is
on a reliable connection, and the message that the server finds there is number `i` of `hist`.) If the calls return (C61), and at least as many of the reliable
attempts as the file has bytes come immediately after another reliable attempt, then the application ends up at the end of the file, and the file is stored. -/
theorem C117_completes {m : Mem} {tries : List (Try σ × Option Nat)} {hist : List Message}
    (hset : ∀ p ∈ tries, Setup true httpParser cfg p.1.transport p.1.send p.1.recv h rb (some bb) p.1.size resp b m)
    (hgood : ∀ a i, (a, some i) ∈ tries → a.Prompt path hist i got rest resp)
    (hbad : ∀ a, (a, none) ∈ tries → FlakyServer a.serves got rest a.send a.recv resp ∧ a.Truthful path hist ∧ got a.start = [])
    {fuel : Nat} (hret : TriesReturn cfg fuel h resp (tries.map (·.1))) (hflag : ¬ headersOnly resp.respOptionFlags) (hfl : sendFl.toNat.testBit 0 = false)
    (hpa : path ≠ []) (hclp : CleanValue path) (hho : host ≠ []) (hclh : CleanValue host) (hcu : fl.toNat.testBit 1 = false → CleanValue cfg.userAgent)
    (hroom : (requestBlock (requestLine (ascii "PATCH") path) (documentedHeaders cfg.userAgent host fl.toNat)).length + 67 ≤ h.bufferLen)
    (hsize : h.bufferLen + h.bufferLen + 2 < 2 ^ cfg.sizeBits) (hfile : file.length ≤ 10 ^ 20)
    {out : Run Nat} {logs : List (List (Ev PLog))} (e : upload httpParser cfg fuel path host fl sendFl file bb (tries.map (·.1)) 0 [] h resp m = (out, logs))
    (hhist : ∀ m ∈ hist, Found logs m) (hord : (tries.filterMap (·.2)).Pairwise (· < ·))
    (hplace : ∀ (j : Nat) (a : Try σ) (i : Nat) (evs : List (Ev PLog)) (m : Message) (r : Bytes), tries[j]? = some (a, some i) → logs[j]? = some evs → readMessage (accepted evs) = some (m, r) → hist[i]? = some m)
    (henough : file.length ≤ steadyFrom false (tries.map (·.2))) :
    out = .ok file.length ∧ storedAfter path hist = file := by
  have hpieces : ∀ m ∈ hist, IsPiece path file m := by
    obtain ⟨out', logs', e', _, h2, _⟩ := upload_run (got := got) (rest := rest) (hist := hist) (cfg := cfg) (h := h) (b := b) (rb := rb) (bb := bb) (host := host) (fl := fl) (file := file)
      hpa hclp hfl hfile (by omega) (by omega) fuel (tries.map (·.1)) 0 [] h resp m (Nat.zero_le _) (fun m hm => by obtain ⟨_, h, _⟩ := hm; cases h) rfl
      (fun a ha => by obtain ⟨p, hp, rfl⟩ := List.mem_map.mp ha; exact hset p hp)
    rw [e] at e'
    cases e'
    exact fun m hm => h2 m (hhist m hm)
  obtain ⟨h1, done, hd, hl⟩ := upload_goes_on hpieces hfl hpa hclp hho hclh hcu hfile fuel tries 0 0 false [] h resp m out logs hset hret hflag hroom hsize hgood hbad hord
    (fun i _ => Nat.zero_le i) e (fun j a i evs m r q1 q2 q3 => hplace j a i evs m r q1 (by simpa using q2) q3) (Nat.zero_le _) ⟨[], List.nil_prefix, rfl⟩ (fun h => nomatch h)
    (fun h => by rw [← h]; rfl) (by rw [List.take_zero]; simpa [storedAfter] using henough)
  refine ⟨h1, ?_⟩
  obtain ⟨h5, h6⟩ := stored_mono hpieces hd
  have h7 := (h5.trans h6).eq_of_length hl
  rw [h7] at h5
  exact (h6.eq_of_length (Nat.le_antisymm h6.length_le h5.length_le))

/-- From some attempt on all connections are reliable: then all these attempts but the first count. -/
theorem C117_count {early late : List (Option Nat)} (h : ∀ p ∈ late, p.isSome = true) : late.length ≤ steadyFrom false (early ++ late) + 1 := by
  have mono : ∀ (l : List (Option Nat)) b, steadyFrom false l ≤ steadyFrom b l := by
    intro l b
    cases l with
    | nil => exact Nat.le_refl _
    | cons p l => rw [steadyFrom_cons, steadyFrom_cons]; simp
  have all : ∀ l : List (Option Nat), (∀ p ∈ l, p.isSome = true) → steadyFrom true l = l.length := by
    intro l
    induction l with
    | nil => intro _; rfl
    | cons p l ih =>
      intro hl
      have hp := hl p (by simp)
      rw [steadyFrom_cons, hp, ih (fun q hq => hl q (by simp [hq]))]
      simp; omega
  have app : ∀ (l : List (Option Nat)) b, steadyFrom false late ≤ steadyFrom b (l ++ late) := by
    intro l
    induction l with
    | nil => intro b; exact mono late b
    | cons p l ih => intro b; rw [List.cons_append, steadyFrom_cons]; exact Nat.le_trans (ih _) (Nat.le_add_left _ _)
  refine Nat.le_trans ?_ (Nat.add_le_add_right (app early false) 1)
  cases late with
  | nil => exact Nat.zero_le _
  | cons p l =>
    rw [steadyFrom_cons, h p (by simp), all l (fun q hq => h q (by simp [hq]))]
    simp

/-! ### Non-vacuity: any file, any server, on reliable connections and on others -/

/-- How many bytes are stored when the server has processed `i` messages. -/
def storedLen (path : Bytes) (hist : List Message) (i : Nat) : Nat := (storedAfter path (hist.take i)).length

/-- The answer of the server, on a reliable connection, when the next message it processes is number `i`. -/
def promptServe (path : Bytes) (hist : List Message) (i : Nat) (q : Bytes) : Bytes :=
  match readMessage q with
  | some (m, []) =>
    if hist[i]? = some m ∧ storedLen path hist (i + 1) ≠ storedLen path hist i then (appended (storedLen path hist (i + 1))).bytes
    else (elsewhere (storedLen path hist i)).bytes
  | _ => []

/-- Accepts at most 20 bytes at a time. -/
def promptSend (path : Bytes) (hist : List Message) (i : Nat) : FlakyEnv → Bytes → Int × FlakyEnv := fun s d =>
  (((min 20 d.length : Nat) : Int), s.1 + 1, s.2.1 ++ d.take 20, promptServe path hist i (s.2.1 ++ d.take 20), s.2.2.2)

/-- An attempt to send `size` bytes: on a reliable connection, on which the message is processed as number `i`; or on one that breaks after so many calls of send and of receive, to a
server that has processed `i` messages and, when it gets the missing piece, will have processed `j`. -/
def exArrive (path : Bytes) (hist : List Message) : Nat × (Nat ⊕ (Nat × Nat × Nat × Nat)) → Try FlakyEnv × Option Nat
  | (size, .inl i) => (⟨size, promptSend path hist i, steadyRecv, (0, [], [], 0, 0), fun _ _ => True⟩, some i)
  | (size, .inr (i, j, sends, recvs)) => (exTry path size (storedLen path hist i) (storedLen path hist j) sends recvs, none)

theorem promptServer (path : Bytes) (hist : List Message) (i q n : Nat) :
    Server (promptServe path hist i) (fun s => s.2.1) (fun s => s.2.2.1) (promptSend path hist i) steadyRecv (flakyResp q n) where
  accepts := by
    intro s d hd
    have : 0 < d.length := List.length_pos_iff.mpr hd
    unfold promptSend
    dsimp only
    omega
  takes := by
    intro s d
    unfold promptSend
    dsimp only
    congr 1
    rcases Nat.le_total 20 d.length with h | h
    · rw [Nat.min_eq_left h]; rfl
    · rw [Nat.min_eq_right h, List.take_of_length_le h, List.take_of_length_le (by omega)]
  answers := fun _ _ => rfl
  delivers := (steadyServer [] q n).delivers
  progress := (steadyServer [] q n).progress
  keeps := fun _ _ => rfl
  clock := by intro f hf s; cases hf; exact ⟨rfl, rfl⟩
  header := by intro c hc s a f b v code; cases hc; exact ⟨rfl, rfl⟩

theorem appended_length {k : Nat} (hk : k ≤ 10 ^ 20) : (appended k).bytes.length ≤ 200 := by
  have h : (decimal k).length ≤ 21 := decimal_length_le (k := 20) (by omega)
  have e1 : (ascii "No Content").length = 10 := by decide
  have e2 : (ascii "upload-offset").length = 13 := by decide
  have e3 : (ascii " ").length = 1 := by decide
  have e4 : Version.v11.text.length = 9 := by decide
  simp only [appended, Response.bytes, Response.head, section_, Content.bytes, Field.line, digits3, crlf, List.length_append, List.map_cons, List.map_nil, List.flatten_cons,
    List.flatten_nil, List.length_cons, List.length_nil, e1, e2, e3, e4]
  omega

theorem elsewhere_length {k : Nat} (hk : k ≤ 10 ^ 20) : (elsewhere k).bytes.length ≤ 200 := by
  have h : (decimal k).length ≤ 21 := decimal_length_le (k := 20) (by omega)
  have e1 : (ascii "Conflict").length = 8 := by decide
  have e2 : (ascii "UPLOAD-offset").length = 13 := by decide
  have e3 : (ascii " ").length = 1 := by decide
  have e4 : Version.v11.text.length = 9 := by decide
  have e5 : (ascii "content-length").length = 14 := by decide
  have e6 : (ascii "0").length = 1 := by decide
  simp only [elsewhere, Response.bytes, Response.head, section_, Content.bytes, Field.line, digits3, crlf, List.length_append, List.map_cons, List.map_nil, List.flatten_cons,
    List.flatten_nil, List.length_cons, List.length_nil, e1, e2, e3, e4, e5, e6]
  omega

/-- The version that the server states. -/
theorem appended_says (k : Nat) : ∃ v, FirstValue (ascii "Upload-Offset") (appended k) v ∧ readDecimal v = some k :=
  ⟨_, ⟨[], _, [], rfl, (C56_compare (s := ascii "Upload-Offset") (t := ascii "upload-offset") (n := 13) (by decide) (by decide)).2.1 (by decide +kernel),
    (fun g hg => nomatch hg), rfl⟩, readDecimal_decimal _⟩

theorem elsewhere_says (k : Nat) : ∃ v, FirstValue (ascii "Upload-Offset") (elsewhere k) v ∧ readDecimal v = some k := by
  refine ⟨_, ⟨[_], _, [], rfl, (C56_compare (s := ascii "Upload-Offset") (t := ascii "UPLOAD-offset") (n := 13) (by decide) (by decide)).2.1 (by decide +kernel), ?_, rfl⟩,
    readDecimal_decimal _⟩
  intro g hg
  rw [List.mem_singleton] at hg
  subst hg
  rintro ⟨h, _⟩
  revert h
  show ¬ (ascii "Upload-Offset").length = (ascii "content-length").length
  decide

theorem exArrive_prompt {path : Bytes} {hist : List Message} {size i q : Nat} (hsize : 0 < size) (hL : ∀ i, storedLen path hist i ≤ 10 ^ 20) :
    (exArrive path hist (size, .inl i)).1.Prompt path hist i (fun s => s.2.1) (fun s => s.2.2.1) (flakyResp q 200) := by
  refine ⟨hsize, rfl, _, promptServer path hist i q 200, ?_⟩
  intro q' m hq _
  unfold promptServe
  rw [hq]
  dsimp only
  by_cases hc : hist[i]? = some m ∧ storedLen path hist (i + 1) ≠ storedLen path hist i
  · rw [if_pos hc]
    exact ⟨_, appended_ok _, rfl, appended_length (hL _), fun _ => ⟨.inl rfl, appended_says _⟩⟩
  · rw [if_neg hc]
    refine ⟨_, elsewhere_ok _, rfl, elsewhere_length (hL _), fun hm => ⟨.inr rfl, ?_⟩⟩
    have h : storedLen path hist (i + 1) = storedLen path hist i := by
      rcases Nat.decEq (storedLen path hist (i + 1)) (storedLen path hist i) with hne | heq
      · exact absurd ⟨hm, hne⟩ hc
      · exact heq
    obtain ⟨v, h1, h2⟩ := elsewhere_says (storedLen path hist i)
    exact ⟨v, h1, h2.trans (congrArg some h.symm)⟩

/-- Any file, any list of attempts, any history of the server that fits to them. -/
theorem C117_any_tries (file : Bytes) (hfile : file.length ≤ 10 ^ 20) (hist : List Message) (ps : List (Nat × (Nat ⊕ (Nat × Nat × Nat × Nat))))
    (hps : ∀ p ∈ ps, 0 < p.1 ∧ p.1 ≤ 5) (q : Nat) (hq : q = 0 ∨ q = 1) {fuel : Nat} (hfuel : 10000 ≤ fuel) {out : Run Nat} {logs : List (List (Ev PLog))}
    (e : upload httpParser exCfg fuel (ascii "/up") (ascii "example.com") 1 0 file 2 (ps.map fun p => (exArrive (ascii "/up") hist p).1)
      0 [] eHdr (flakyResp q 200) xMem = (out, logs)) (hhist : ∀ m ∈ hist, Found logs m)
    (hord : (ps.filterMap fun p => (exArrive (ascii "/up") hist p).2).Pairwise (· < ·))
    (hplace : ∀ (j i : Nat) (evs : List (Ev PLog)) (m : Message) (r : Bytes), (ps[j]?).map (fun p => (exArrive (ascii "/up") hist p).2) = some (some i) → logs[j]? = some evs →
      readMessage (accepted evs) = some (m, r) → hist[i]? = some m)
    (henough : file.length ≤ steadyFrom false (ps.map fun p => (exArrive (ascii "/up") hist p).2)) :
    out = .ok file.length ∧ storedAfter (ascii "/up") hist = file := by
  have hx := peerCallPre [] [] q hq
  have hB : ∀ x : UInt32, x.toNat ≤ 1000 → 4294966296 ≤ 4294967296 - x.toNat := fun x h => by omega
  have hset : ∀ p ∈ ps, Setup true httpParser exCfg (exArrive (ascii "/up") hist p).1.transport (exArrive (ascii "/up") hist p).1.send
      (exArrive (ascii "/up") hist p).1.recv eHdr 0 (some 2) (exArrive (ascii "/up") hist p).1.size (flakyResp q 200) q xMem := by
    rintro ⟨size, o⟩ hp
    have hs := hps _ hp
    rcases o with i | ⟨i, j, sends, recvs⟩
    · exact
      { parser := hx.parser, hasSend := rfl, hasRecv := rfl
        sendOk := (fun s d => by show ((min 20 d.length : Nat) : Int) ≤ _; omega)
        recvOk := (fun s len => by
          unfold exArrive steadyRecv
          exact ⟨by dsimp only; rw [List.length_take]; omega, by dsimp only; rw [List.length_take]; omega⟩)
        agent := by decide, reqBuf := rfl, reqRoom := by decide +kernel, reqSize := by decide
        buf := rfl, pos := (by show 0 < 200; decide), room := hx.room, size := (by show 200 < _; decide)
        callback := (fun h => nomatch h), bodyNone := (fun h => nomatch h)
        bodyRoom := (fun bb h => by cases h; exact ⟨Nat.le_trans hs.2 (by decide +kernel), by decide⟩)
        bodyMax := (by have := hs.2; show size ≤ _; dsimp only at this; omega) }
    · exact upSetup _ size _ _ sends recvs q 200 hs.2 hq (by decide)
  have hL : ∀ i, storedLen (ascii "/up") hist i ≤ 10 ^ 20 := by
    obtain ⟨_, h2, _⟩ := C116_upload (got := fun s : FlakyEnv => s.2.1) (rest := fun s => s.2.2.1) (rb := 0) (b := q) (hist := hist)
      (tries := ps.map fun p => (exArrive (ascii "/up") hist p).1)
      (by intro a ha; obtain ⟨p, hp, rfl⟩ := List.mem_map.mp ha; exact hset p hp)
      (by decide) (by decide) (by decide) hfile (by decide) (by decide +kernel) fuel e hhist
    intro i
    exact Nat.le_trans (h2 _ (List.take_prefix _ _)).length_le hfile
  refine C117_completes (got := fun s : FlakyEnv => s.2.1) (rest := fun s => s.2.2.1) (rb := 0) (b := q) (hist := hist) (bb := 2) (cfg := exCfg) (h := eHdr) (m := xMem)
    (tries := ps.map fun p => exArrive (ascii "/up") hist p) (path := ascii "/up") (host := ascii "example.com") (fl := 1) (sendFl := 0) (fuel := fuel) (logs := logs) (resp := flakyResp q 200)
    (by intro a ha; obtain ⟨p, hp, rfl⟩ := List.mem_map.mp ha; exact hset p hp) ?_ ?_ ?_
    (show ¬ ((0 : UInt32).toNat % 2 = 1) by decide) (by decide) (by decide) (by decide) (by decide) (by decide) (fun _ => by decide) (by decide +kernel) (by decide) hfile
    (by rw [List.map_map]; exact e) hhist (by rw [List.filterMap_map]; exact hord) ?_ (by rw [List.map_map]; exact henough)
  · intro a i ha
    obtain ⟨⟨size, o⟩, hp, he⟩ := List.mem_map.mp ha
    rcases o with i' | ⟨i', j, sends, recvs⟩
    · have h2 := congrArg Prod.snd he
      have h1 := congrArg Prod.fst he
      cases h2
      cases h1
      exact exArrive_prompt (hps _ hp).1 hL
    · have h2 := congrArg Prod.snd he
      cases h2
  · intro a ha
    obtain ⟨⟨size, o⟩, hp, he⟩ := List.mem_map.mp ha
    rcases o with i' | ⟨i', j, sends, recvs⟩
    · have h2 := congrArg Prod.snd he
      cases h2
    · have h1 := congrArg Prod.fst he
      cases h1
      exact ⟨upServer _ _ _ q 200, exTry_truthful _ hist _ _ _ _ _, rfl⟩
  · refine .inl ⟨_, fun s => s.1, rfl, ⟨fun _ => rfl, fun _ => Nat.le_refl _⟩, ?_, ?_, ?_⟩
    · intro a ha
      obtain ⟨p, hp1, rfl⟩ := List.mem_map.mp ha
      obtain ⟨⟨size, o⟩, hp2, rfl⟩ := List.mem_map.mp hp1
      have h1 := hB exCfg.sendTimeoutMs (by decide)
      have h2 := hB exCfg.recvTimeoutMs (by decide)
      have hsz : ∀ size, size ≤ 5 → size * (exCfg.sendTimeoutMs.toNat + 1) + exCfg.sendTimeoutMs.toNat + 1 ≤ fuel := by
        intro size hs
        have h3 := Nat.mul_le_mul_right (exCfg.sendTimeoutMs.toNat + 1) hs
        have h4 : 5 * (exCfg.sendTimeoutMs.toNat + 1) + exCfg.sendTimeoutMs.toNat + 1 ≤ 10000 := by decide
        omega
      rcases o with i' | ⟨i', j, sends, recvs⟩
      · refine ⟨fun s d _ => ?_, fun s len _ => ?_, hsz size (hps (size, _) hp2).2⟩
        · show s.1 < s.1 + 1 ∧ s.1 + 1 < s.1 + _; omega
        · show s.1 < s.1 + 1 ∧ s.1 + 1 < s.1 + _; omega
      · refine ⟨fun s d h0 => ?_, fun s len h0 => ?_, hsz size (hps (size, _) hp2).2⟩
        · show s.1 < (upSend _ _ _ s d).2.1 ∧ (upSend _ _ _ s d).2.1 < _
          unfold upSend
          split <;> dsimp only <;> omega
        · have h0 : (flakyRecv s len).1 = 0 := h0
          show s.1 < (flakyRecv s len).2.2.1 ∧ (flakyRecv s len).2.2.1 < _
          unfold flakyRecv at h0 ⊢
          split
          · rename_i hz; rw [if_pos hz] at h0; cases h0
          · dsimp only; omega
    · exact Nat.le_trans (by decide) hfuel
    · exact Nat.le_trans (by show 200 * _ + _ + _ ≤ 10000; decide) hfuel
  · intro j a i evs m r h1 h2 h3
    refine hplace j i evs m r ?_ h2 h3
    rw [List.getElem?_map] at h1
    cases hj : ps[j]? with
    | none => rw [hj] at h1; cases h1
    | some p =>
      rw [hj] at h1
      simp only [Option.map_some, Option.some.injEq] at h1 ⊢
      rw [h1]

/-- The message that brings `piece` to be stored at `off`. -/
def exPatch (off : Nat) (piece : Bytes) : Message :=
  ⟨patchLine (ascii "/up"), documentedHeaders exCfg.userAgent (ascii "example.com") 1 ++ [(ascii "Upload-Offset", decimal off)] ++ autoLength piece.length 0, piece⟩

/-- What the server processes. -/
def exArriveHist : List Message := [exPatch 0 (ascii "ab"), exPatch 0 (ascii "a"), exPatch 2 (ascii "c"), exPatch 3 (ascii "d")]

/-- An upload of four bytes. The first attempt brings two bytes, but receiving fails; then the application tries one byte on a reliable connection and is told that two are there
already; and goes on with one byte at a time. -/
def exArriveTries : List (Nat × (Nat ⊕ (Nat × Nat × Nat × Nat))) := [(2, .inr (0, 1, 100, 2)), (1, .inl 1), (1, .inl 2), (1, .inl 3), (1, .inl 4), (1, .inl 5)]

/-- Its outcome. -/
def exArriveRun : Run Nat × List (List (Ev PLog)) :=
  upload httpParser exCfg 10000 (ascii "/up") (ascii "example.com") 1 0 (ascii "abcd") 2 (exArriveTries.map fun p => (exArrive (ascii "/up") exArriveHist p).1)
    0 [] eHdr (flakyResp 1 200) xMem

theorem exArriveRun_found : exArriveRun.2.map (fun evs => (readMessage (accepted evs)).map (·.1)) = exArriveHist.map some := by decide +kernel

/-- All hypotheses of C117 hold in this upload. -/
example : exArriveRun.1 = .ok 4 ∧ storedAfter (ascii "/up") exArriveHist = ascii "abcd" := by
  have hlen : exArriveRun.2.length = 4 := by
    have := congrArg List.length exArriveRun_found
    simpa [exArriveHist] using this
  have hat : ∀ (i : Nat) (evs : List (Ev PLog)), exArriveRun.2[i]? = some evs → (readMessage (accepted evs)).map (·.1) = exArriveHist[i]? := by
    intro i evs h
    have h1 := congrArg (fun l : List (Option Message) => l[i]?) exArriveRun_found
    simp only [List.getElem?_map, h, Option.map_some] at h1
    cases hh : exArriveHist[i]? with
    | none => rw [hh] at h1; cases h1
    | some m => rw [hh] at h1; exact Option.some.inj h1
  refine C117_any_tries (ascii "abcd") (Nat.le_trans (show (ascii "abcd").length ≤ 4 by decide) (by omega)) exArriveHist exArriveTries (by decide) 1 (.inr rfl) (Nat.le_refl _)
    (out := exArriveRun.1) (logs := exArriveRun.2) (Prod.eta _).symm ?_ (by decide) ?_ (by decide)
  · intro m hm
    obtain ⟨i, hi⟩ := List.mem_iff_getElem?.mp hm
    have hi4 : i < exArriveRun.2.length := by
      rw [hlen]
      exact (List.getElem?_eq_some_iff.mp hi).1
    have h1 := hat i _ (List.getElem?_eq_getElem hi4)
    rw [hi] at h1
    cases hr : readMessage (accepted exArriveRun.2[i]) with
    | none => rw [hr] at h1; cases h1
    | some p =>
      obtain ⟨m', r⟩ := p
      rw [hr] at h1
      cases h1
      exact ⟨_, List.getElem_mem hi4, _, r, List.prefix_refl _, hr⟩
  · intro j i evs m r h1 h2 h3
    have hj : j < 4 := by
      rw [← hlen]
      exact (List.getElem?_eq_some_iff.mp h2).1
    have hji : ∀ j, j < 4 → ∀ i, (exArriveTries[j]?).map (fun p => (exArrive (ascii "/up") exArriveHist p).2) = some (some i) → i = j := by
      intro j hj i h
      have h0 : (exArriveTries.map fun p => (exArrive (ascii "/up") exArriveHist p).2)[j]? = some (some i) := by rw [List.getElem?_map]; exact h
      rw [show (exArriveTries.map fun p => (exArrive (ascii "/up") exArriveHist p).2) = [none, some 1, some 2, some 3, some 4, some 5] from rfl] at h0
      match j, hj with
      | 0, _ => exact nomatch (Option.some.inj h0)
      | 1, _ => exact (Option.some.inj (Option.some.inj h0)).symm
      | 2, _ => exact (Option.some.inj (Option.some.inj h0)).symm
      | 3, _ => exact (Option.some.inj (Option.some.inj h0)).symm
    rw [hji j hj i h1]
    have h4 := hat j evs h2
    rw [h3, Option.map_some] at h4
    exact h4.symm

end CoreHttp.Props

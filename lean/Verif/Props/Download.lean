import Verif.Props.EndToEnd
import Verif.Spec.Download

/-! # C89: a file downloaded piece by piece with range requests is the file -/

namespace CoreHttp.Props
open CoreHttp Spec
variable {σ : Type} {P : Parser} {cfg : Cfg} {strict : Bool} {T : Transport σ} {send : σ → Bytes → Int × σ} {recv : σ → Nat → Int × Bytes × σ}
  {resp : Resp σ} {h : ReqHeaders} {b rb : Nat} {serve : Bytes → Bytes} {got rest : σ → Bytes}

/-- A server is a peer, for every request. -/
theorem server_peer (hS : Server serve got rest send recv resp) (q : Bytes) : Peer q (serve q) got rest send recv resp :=
  { accepts := hS.accepts
    takes := hS.takes
    answers := fun s d e => by rw [hS.answers, e]
    delivers := hS.delivers
    progress := hS.progress
    keeps := hS.keeps
    clock := hS.clock
    header := hS.header }

/-- The two calls that build a range request succeed if there is room. -/
theorem build_range {m : Mem} {me path ho : Bytes} {fl : UInt32} {first last : Nat} (hua : cfg.userAgent ≠ []) (hbuf : HasBuf m h rb) (hme : me ≠ [])
    (hpa : path ≠ []) (hho : ho ≠ []) (hclh : CleanValue ho) (hcu : fl.toNat.testBit 1 = false → CleanValue cfg.userAgent)
    (hroom : (requestBlock (requestLine me path) (documentedHeaders cfg.userAgent ho fl.toNat)).length + 36 ≤ h.bufferLen)
    (hsize : h.bufferLen + h.bufferLen + 2 < 2 ^ cfg.sizeBits) (hle : first ≤ last) (hmax : last ≤ 2147483647) :
    (∀ op ∈ [BuildOp.init (some ⟨some me, some path, some ho, fl⟩), .addRange first last], OpOk cfg h.bufferLen op) ∧
    ∃ rh m1, runBuildOps cfg m h [.init (some ⟨some me, some path, some ho, fl⟩), .addRange first last] = .ok ([.success, .success], rh, m1) := by
  have hep : effectivePath (some path) = path := by
    unfold effectivePath
    cases path with
    | nil => exact absurd rfl hpa
    | cons x t => rfl
  have ho1 : OpOk cfg h.bufferLen (.init (some ⟨some me, some path, some ho, fl⟩)) := ⟨by
    show h.bufferLen + (requestBlock (requestLine me (effectivePath (some path))) (documentedHeaders cfg.userAgent ho fl.toNat)).length < _
    rw [hep]; omega, trivial⟩
  have ho2 : OpOk cfg h.bufferLen (.addRange first last) := by
    refine ⟨(by show h.bufferLen + 38 < _; omega), ⟨by omega, by omega⟩, by omega, by omega⟩
  have hops : ∀ op ∈ [BuildOp.init (some ⟨some me, some path, some ho, fl⟩), .addRange first last], OpOk cfg h.bufferLen op := by
    intro op hop
    simp only [List.mem_cons, List.not_mem_nil, or_false] at hop
    rcases hop with rfl | rfl
    · exact ho1
    · exact ho2
  refine ⟨hops, ?_⟩
  obtain ⟨st, h1, m1, e1, hiff, _⟩ := C02_init_success_iff (cfg := cfg) (m := m) (h := h) (b := rb) (me := me) (ho := ho) (path := some path) (flags := fl) hua hbuf
    hme hho (by rw [hep]; omega)
  have hst : st = .success := hiff.2 ⟨by rw [hep]; omega, hclh, hcu⟩
  subst hst
  obtain ⟨sts, h1', m1', e, _, hb1, hbl1, _, _, ha⟩ := runBuildOps_spec hua [.init (some ⟨some me, some path, some ho, fl⟩)] m h rb none hbuf.1 hbuf.2
    (fun op hop => hops op (by simp only [List.mem_cons, List.not_mem_nil, or_false] at hop; simp [hop]))
  have e0 : runBuildOps cfg m h [.init (some ⟨some me, some path, some ho, fl⟩)] = .ok ([.success], h1, m1) := by
    simp only [runBuildOps, runBuildOp, e1]; rfl
  rw [e0] at e
  cases e
  obtain ⟨hB, _, _⟩ := ha (by simp) (requestLine me (effectivePath (some path))) (documentedHeaders cfg.userAgent ho fl.toNat) rfl
  rw [hep] at hB
  obtain ⟨st2, h2, m2, e2, hinv, hcase, hins⟩ := C15_range_accepted_iff (cfg := cfg) (m := m1) (h := h1) (b := rb) (s := first) (e := last)
    ⟨hB.buf, hB.real⟩ hB.le (by rw [hbl1]; exact ho2)
  have hv : ValidRange (first : Int) last := ⟨by omega, by omega, by omega, by omega⟩
  have hst2 : st2 = .success := by
    rcases hcase with h | h | h
    · exact h
    · obtain ⟨_, h⟩ := hins.1 h
      have h5 := (rangeText_length (s := first) (e := last) ⟨by omega, by omega⟩ ⟨by omega, by omega⟩ hv).1
      have h6 : (stripBlankLine (headerBlock m1 h1)).length + 2 =
          (requestBlock (requestLine me path) (documentedHeaders cfg.userAgent ho fl.toNat)).length := by
        rw [hB.eq]
        have hne : documentedHeaders cfg.userAgent ho fl.toNat ≠ [] := by simp [documentedHeaders]
        unfold requestBlock
        rw [strip_crlf]
        · simp [crlf]; omega
        · obtain ⟨pre, p, hp⟩ : ∃ pre p, documentedHeaders cfg.userAgent ho fl.toNat = pre ++ [p] :=
            ⟨_, _, (List.dropLast_concat_getLast hne).symm⟩
          rw [hp, headerLines_append, ← List.append_assoc]
          have : headerLines [p] = headerLine p.1 p.2 := by simp [headerLines]
          rw [this]
          exact crlf_suffix_headerLine _ _ _
      omega
    · have := hinv.1 h
      omega
  subst hst2
  refine ⟨h2, m2, ?_⟩
  simp only [runBuildOps, runBuildOp, e1]
  show (HTTPClient_AddRangeHeader cfg m1 (some h1) first last >>= _) >>= _ = _
  rw [e2]
  rfl

/-- The headers of a request with one AddRangeHeader call: one of them is a Range header. -/
theorem one_range (ua ho v : Bytes) (fl : Nat) :
    (documentedHeaders ua ho fl ++ [(ascii "Range", v)]).filter (·.1 == ascii "Range") = [(ascii "Range", v)] := by
  have e1 : (ascii "User-Agent" == ascii "Range") = false := by decide
  have e2 : (ascii "Host" == ascii "Range") = false := by decide
  have e3 : (ascii "Connection" == ascii "Range") = false := by decide
  have e4 : (ascii "Range" == ascii "Range") = true := by decide
  unfold documentedHeaders
  cases fl.testBit 1 <;> cases fl.testBit 0 <;> simp [List.filter_cons, e1, e2, e3, e4]

/-- The download loop, for a connect function of which only is known that it opens a new connection after a GET of the path, and a
server of which only is known how it answers such requests. -/
theorem download_gen {m : Mem} {path host file : Bytes} {fl sendFl : UInt32} {most : Nat} {connect : σ → σ}
    (hset : Setup true Ref.httpParser cfg T send recv h rb none 0 resp b m) 
    (hS : ∀ q hs, readRequest q = some (ascii "GET " ++ path ++ ascii " HTTP/1.1", hs, []) → Peer q (serve q) got rest send recv resp)
    (hR : RangeServer serve path file most resp.bufferLen) (hconn : ∀ s hs, readRequest (got s) = some (ascii "GET " ++ path ++ ascii " HTTP/1.1", hs, []) → got (connect s) = []) (hflag : ¬ headersOnly resp.respOptionFlags)
    (hpa : path ≠ []) (hclp : CleanValue path) (hho : host ≠ []) (hclh : CleanValue host)
    (hcu : fl.toNat.testBit 1 = false → CleanValue cfg.userAgent)
    (hroom : (requestBlock (requestLine (ascii "GET") path) (documentedHeaders cfg.userAgent host fl.toNat)).length + 36 ≤ h.bufferLen)
    (hsize : h.bufferLen + h.bufferLen + 2 < 2 ^ cfg.sizeBits)
    (hfile : file.length ≤ 2147483648) {pieces : List Nat} (hpos : ∀ k ∈ pieces, 0 < k ∧ k ≤ most) (hsum : pieces.sum = file.length)
    (s : σ) (hs0 : got (connect s) = []) (l : List (Ev PLog)) {fuel : Nat} (hf1 : h.bufferLen ≤ fuel) (hf3 : resp.bufferLen < fuel) :
    download Ref.httpParser cfg fuel T connect path host fl sendFl pieces 0 h resp ⟨s, m, l⟩ = some file := by
  have key : ∀ (ks : List Nat) (first : Nat) (h' : ReqHeaders) (resp' : Resp σ) (w : World PLog σ), (∀ k ∈ ks, 0 < k ∧ k ≤ most) →
      first + ks.sum = file.length → h'.bufferLen = h.bufferLen → resp'.bufferLen = resp.bufferLen →
      Setup true Ref.httpParser cfg T send recv h' rb none 0 resp' b w.mem → (∀ q hs, readRequest q = some (ascii "GET " ++ path ++ ascii " HTTP/1.1", hs, []) → Peer q (serve q) got rest send recv resp') → ¬ headersOnly resp'.respOptionFlags →
      got (connect w.env) = [] →
      download Ref.httpParser cfg fuel T connect path host fl sendFl ks first h' resp' w = some (file.drop first) := by
    intro ks
    induction ks with
    | nil =>
      intro first h' resp' w _ hs _ _ _ _ _ _
      unfold download
      simp only [List.sum_nil, Nat.add_zero] at hs
      rw [hs, List.drop_length]
    | cons k ks ih =>
      intro first h' resp' w hk hs hbl hrl hset hS hflag hcon
      obtain ⟨hk0, hkm⟩ := hk k (by simp)
      simp only [List.sum_cons] at hs
      obtain ⟨hops, rh, m1, e⟩ := build_range (m := w.mem) (first := first) (last := first + k - 1) hset.agent ⟨hset.reqBuf, hset.reqRoom⟩ (show ascii "GET" ≠ [] by decide) hpa hho
        hclh hcu (by rw [hbl]; exact hroom) (by rw [hbl]; exact hsize) (by omega) (by omega)
      have hep : effectivePath (some path) = path := by
        unfold effectivePath
        cases path with
        | nil => exact absurd rfl hpa
        | cons x t => rfl
      have hcast : ((first + k - 1 : Nat) : Int) = (first : Int) + k - 1 := by omega
      have hrr : requestedRange (first : Int) ((first + k - 1 : Nat) : Int) = .fromTo first (first + k - 1) := by
        unfold requestedRange
        rw [if_neg (by omega), if_neg (by omega)]
        rfl
      have habs : absRun cfg.userAgent none
          ([BuildOp.init (some ⟨some (ascii "GET"), some path, some host, fl⟩), .addRange first (first + k - 1 : Nat)].zip [.success, .success]) =
          some (requestLine (ascii "GET") path,
            documentedHeaders cfg.userAgent host fl.toNat ++ [(ascii "Range", rangeText (.fromTo first (first + k - 1)))]) := by
        simp only [List.zip_cons_cons, List.zip_nil_right, absRun, absStep, Option.map_some, hep, hrr]
      obtain ⟨hp, hbl1, hB, hne, hcl, hbd⟩ := built hset hops e habs
      generalize hhs : documentedHeaders cfg.userAgent host fl.toNat ++ [(ascii "Range", rangeText (.fromTo first (first + k - 1)))] = hs' at habs hB hcl hne
      have hread := wire_reads (me := ascii "GET") (path := path) (show CleanValue (ascii "GET") by decide) hclp hcl [] 0 sendFl.toNat
      have hal : autoLength 0 sendFl.toNat = [] := by unfold autoLength addsContentLength; simp
      rw [hal, List.append_nil, List.append_nil] at hread
      have e4 : ascii "GET" ++ ascii " " = ascii "GET " := by decide
      rw [e4] at hread
      obtain ⟨r, hok, hserve, hrs, hcode, hdata⟩ := hR _ _ (rangeText (.fromTo first (first + k - 1))) first (first + k - 1) hread
        (by rw [← hhs]; exact one_range _ _ _ _) (readRange_rangeText _) (by omega) (by omega) (by omega)
      have hblk : (requestBlock (requestLine (ascii "GET") path) hs').length ≤ h'.bufferLen := by
        have h1 := hp.reqLe
        have h2 := hp.reqRoom
        have h3 : (headerBlock m1 rh).length = rh.headersLen := by
          unfold headerBlock; rw [hp.reqBuf]; simp only [List.length_take]; omega
        rw [← hB, h3]; omega
      obtain ⟨rh', resp2, w', evs, e5, hl, hrd, _, g⟩ := C64_end_to_end (flags := sendFl) (s := connect w.env) (l := w.log) (fuel := fuel) (got := got) (rest := rest)
        (head := false) (r := r) hset hops e habs (show CleanValue (ascii "GET") by decide) hclp (by rw [hal, List.append_nil]; exact hblk) hok
        (by
          simp only [Bool.false_eq_true, if_false]
          intro hpre
          unfold requestLine at hpre
          have := List.prefix_iff_eq_take.mp hpre
          have h2 := congrArg (fun x : Bytes => x[0]?) this
          revert h2
          simp [ascii])
        hflag (by rw [hrl]; exact hrs)
        (by
          have := hS (requestBlock (requestLine (ascii "GET") path) hs') _ hread
          rw [hserve] at this
          rw [hal, List.append_nil]
          show Peer (_ ++ []) _ _ _ _ _ _
          rw [List.append_nil]; exact this)
        hcon (by omega) (by omega) (by omega)
      unfold download
      rw [← hcast, e]
      dsimp only
      rw [e5]
      dsimp only
      rw [if_pos (by rw [g.statusCode]; exact hcode)]
      obtain ⟨rh2, resp3, he1, he2, hsu2, hb2, hbl2, _, _, _⟩ := send_leaves (w := ⟨connect w.env, m1, w.log⟩) hp e5
      cases he1; cases he2
      have hlen : ∀ i, (w'.mem i).length = (w.mem i).length := by
        intro i
        obtain ⟨_, w2, e6, _, _, h3, _⟩ := C60_safe (w := ⟨connect w.env, m1, w.log⟩) (flags := sendFl) hp fuel
        rw [e5] at e6
        cases e6
        rw [h3 i]
        obtain ⟨_, _, _, e7, _, _, _, _, hfr, _⟩ := runBuildOps_spec hset.agent _ w.mem h' rb none hset.reqBuf hset.reqRoom hops
        rw [e] at e7
        cases e7
        by_cases hi : i = rb
        · subst hi; exact hfr.2.1
        · dsimp only; rw [hfr.1 i hi]
      obtain ⟨u1, u2, u3, u4, u5⟩ := hsu2
      have hset2 : Setup true Ref.httpParser cfg T send recv rh' rb none 0 resp2 b w'.mem :=
        { hset with
          reqBuf := hb2
          reqRoom := by rw [hbl2, hbl1, hlen]; exact hset.reqRoom
          reqSize := by rw [hbl2, hbl1]; exact hset.reqSize
          buf := u1.trans hset.buf
          pos := by rw [u2]; exact hset.pos
          room := by rw [u2, hlen]; exact hset.room
          size := by rw [u2]; exact hset.size
          callback := by rw [u3]; exact hset.callback
          bodyRoom := fun bb h => nomatch h }
      have hS2 : ∀ q hs, readRequest q = some (ascii "GET " ++ path ++ ascii " HTTP/1.1", hs, []) → Peer q (serve q) got rest send recv resp2 := fun q hs hq =>
        { hS q hs hq with
          clock := fun f hf => (hS q hs hq).clock f (by
            rw [u4] at hf
            unfold withClock at hf
            dsimp only at hf
            cases hg : resp'.getTime <;> rw [hg] at hf <;> first | exact hf | cases hf)
          header := fun c hc => (hS q hs hq).header c (by rw [u3] at hc; exact hc) }
      rw [ih (first + k) rh' resp2 w' (fun j hj => hk j (by simp [hj])) (by omega) (by rw [hbl2, hbl1, hbl]) (by rw [u2]; exact hrl) hset2 hS2
        (by rw [u5]; exact hflag)
        (hconn _ _ (by rw [hal, List.append_nil, e4] at hrd; exact hrd)), Option.map_some, g.body, hdata, show first + k - 1 + 1 - first = k by omega, ← List.drop_drop, List.take_append_drop]
  exact key pieces 0 h resp ⟨s, m, l⟩ hpos (by simpa using hsum) rfl rfl hset hS hflag hs0

/-- **C89.** A server has a file of at most 2^31 bytes and answers range requests. The application downloads it piece by piece: for each piece it initialises the
request, adds the range, sends, and takes the body. Whatever the pieces (not empty, at most as large as the server gives), whatever framing and headers the
server chooses for each answer, however the transport cuts up what is sent and received, whatever was in the buffers: no call fails and the concatenation of
the bodies is the file, byte for byte. -/
theorem C89_download {m : Mem} {path host file : Bytes} {fl sendFl : UInt32} {most : Nat} {connect : σ → σ}
    (hset : Setup true Ref.httpParser cfg T send recv h rb none 0 resp b m) (hS : Server serve got rest send recv resp)
    (hR : RangeServer serve path file most resp.bufferLen) (hconn : ∀ s, got (connect s) = []) (hflag : ¬ headersOnly resp.respOptionFlags)
    (hpa : path ≠ []) (hclp : CleanValue path) (hho : host ≠ []) (hclh : CleanValue host)
    (hcu : fl.toNat.testBit 1 = false → CleanValue cfg.userAgent)
    (hroom : (requestBlock (requestLine (ascii "GET") path) (documentedHeaders cfg.userAgent host fl.toNat)).length + 36 ≤ h.bufferLen)
    (hsize : h.bufferLen + h.bufferLen + 2 < 2 ^ cfg.sizeBits)
    (hfile : file.length ≤ 2147483648) {pieces : List Nat} (hpos : ∀ k ∈ pieces, 0 < k ∧ k ≤ most) (hsum : pieces.sum = file.length)
    (s : σ) (l : List (Ev PLog)) {fuel : Nat} (hf1 : h.bufferLen ≤ fuel) (hf3 : resp.bufferLen < fuel) :
    download Ref.httpParser cfg fuel T connect path host fl sendFl pieces 0 h resp ⟨s, m, l⟩ = some file := by
  exact download_gen hset (fun q _ _ => server_peer hS q) hR (fun s _ _ => hconn s) hflag hpa hclp hho hclh hcu hroom hsize hfile hpos hsum s (hconn s) l hf1 hf3

/-! ### Non-vacuity: a server for any file -/

/-- The answer with this content. -/
def partAnswer (d : Bytes) : Response where
  version := .v11
  code := 206
  reason := ascii "Partial Content"
  fields := [⟨ascii "Content-Length", ascii " ", decimal d.length⟩, ⟨ascii "Connection", [], ascii "close"⟩]
  content := .length d

theorem trim_decimal (n : Nat) : trimBlanks (decimal n) = decimal n := by
  have hd := decimal_digits n
  have hb : ∀ l : Bytes, (∀ c ∈ l, isBlank c = false) → l.dropWhile isBlank = l := by
    intro l hl
    cases l with
    | nil => rfl
    | cons x t => rw [List.dropWhile_cons, hl x (by simp)]; rfl
  have hx : ∀ c ∈ decimal n, isBlank c = false := by
    intro c hc
    have := hd c hc
    unfold isBlank
    simp only [decide_eq_false_iff_not]
    rintro (rfl | rfl) <;> (revert this; decide)
  unfold trimBlanks
  rw [hb _ hx, hb _ (fun c hc => hx c (List.mem_reverse.mp hc)), List.reverse_reverse]

theorem partAnswer_ok (d : Bytes) (hd : d.length < 18446744073709551615) : (partAnswer d).Ok false where
  code := by show 100 ≤ 206 ∧ 206 ≤ 999; decide
  reason := show ∀ c ∈ ascii "Partial Content", c ≠ 13 ∧ c ≠ 10 by decide +kernel
  fields := by
    intro f hf
    simp only [partAnswer, List.mem_cons, List.not_mem_nil, or_false] at hf
    rcases hf with rfl | rfl
    · have hx : ∀ c ∈ decimal d.length, 48 ≤ c.toNat ∧ c.toNat ≤ 57 := decimal_digits d.length
      have hn : ∀ x : UInt8, (x = 32 ∨ x = 9) → (decimal d.length).head? ≠ some x := by
        intro x hx' hh
        have := hx x (List.mem_of_mem_head? hh)
        rcases hx' with rfl | rfl <;> revert this <;> decide
      refine ⟨⟨by show ascii "Content-Length" ≠ []; decide, show ∀ c ∈ ascii "Content-Length", isTokenChar c = true by decide +kernel⟩,
        show ∀ c ∈ ascii " ", c = 32 ∨ c = 9 by decide, ?_, hn 32 (.inl rfl), hn 9 (.inr rfl)⟩
      intro c hc
      have := hx c hc
      refine ⟨?_, ?_, ?_⟩ <;> (rintro rfl; revert this; decide)
    · exact fieldOk_of (by decide +kernel)
  content := by
    refine ⟨rfl, ⟨⟨ascii "Content-Length", ascii " ", decimal d.length⟩, ?_, ?_⟩, hd, ?_⟩
    · show [Field.mk (ascii "Content-Length") (ascii " ") (decimal d.length), ⟨ascii "Connection", [], ascii "close"⟩].filter _ = _
      rw [List.filter_cons_of_pos (by show decide ((ascii "Content-Length").map lowerAscii = ascii "content-length") = true; decide +kernel),
        List.filter_cons_of_neg (by show ¬ decide ((ascii "Connection").map lowerAscii = ascii "content-length") = true; decide +kernel), List.filter_nil]
    · show readDecimal (trimBlanks (decimal d.length)) = some d.length
      rw [trim_decimal, readDecimal_decimal]
    · intro f hf
      simp only [partAnswer, List.mem_cons, List.not_mem_nil, or_false] at hf
      rcases hf with rfl | rfl
      · show ¬ (ascii "Content-Length").map lowerAscii = ascii "transfer-encoding"; decide +kernel
      · show ¬ (ascii "Connection").map lowerAscii = ascii "transfer-encoding"; decide +kernel

theorem partAnswer_length (d : Bytes) (hd : d.length < 10 ^ 10) : (partAnswer d).bytes.length ≤ 80 + d.length := by
  have h1 := decimal_length_le (k := 9) hd
  have e1 : (ascii "HTTP/1.1 ").length = 9 := by decide
  have e2 : (ascii "Partial Content").length = 15 := by decide
  have e3 : (ascii "Content-Length").length = 14 := by decide
  have e4 : (ascii " ").length = 1 := by decide
  have e5 : (ascii "Connection").length = 10 := by decide
  have e6 : (ascii "close").length = 5 := by decide
  simp only [partAnswer, Response.bytes, Response.head, section_, Content.bytes, Version.text, digits3, crlf, Field.line, List.map_cons, List.map_nil,
    List.flatten_cons, List.flatten_nil, List.length_append, List.length_cons, List.length_nil, e1, e2, e3, e4, e5, e6]
  omega

/-- A server for `file`: it answers the range request it got, if it is one. -/
def serveFile (file q : Bytes) : Bytes :=
  match readRequest q with
  | some (_, hs, []) =>
    match hs.filter (·.1 == ascii "Range") with
    | [(_, v)] =>
      match readRange v with
      | some (.fromTo a b) => (partAnswer ((file.drop a).take (b + 1 - a))).bytes
      | _ => []
    | _ => []
  | _ => []

theorem serveFile_ok (path file : Bytes) : RangeServer (serveFile file) path file 120 200 := by
  intro q hs v first last hq hf hv h1 h2 h3
  have hl : ((file.drop first).take (last + 1 - first)).length ≤ 120 := by rw [List.length_take]; omega
  refine ⟨partAnswer ((file.drop first).take (last + 1 - first)), partAnswer_ok _ (by omega), ?_, ?_, rfl, rfl⟩
  · unfold serveFile
    rw [hq]; dsimp only
    rw [hf]; dsimp only
    rw [hv]
  · have := partAnswer_length ((file.drop first).take (last + 1 - first)) (by omega)
    omega

/-- It accepts at most 7 bytes at a time. -/
def fileSend (file : Bytes) : PeerEnv → Bytes → Int × PeerEnv := fun s d =>
  (((min 7 d.length : Nat) : Int), s.1 + 1, s.2.1 ++ d.take 7, serveFile file (s.2.1 ++ d.take 7))

theorem fileServer (file : Bytes) (q : Nat) :
    Server (serveFile file) (fun s => s.2.1) (fun s => s.2.2) (fileSend file) peerRecv (peerResp q) :=
  { accepts := (peer_ok [] [] q).accepts
    takes := (peer_ok [] [] q).takes
    answers := fun _ _ => rfl
    delivers := (peer_ok [] [] q).delivers
    progress := (peer_ok [] [] q).progress
    keeps := (peer_ok [] [] q).keeps
    clock := (peer_ok [] [] q).clock
    header := (peer_ok [] [] q).header }

/-- Any file of at most 2^31 bytes, in any pieces of at most 120 bytes, is downloaded; request and response share one buffer (`q = 0`) or have one each. -/
theorem C89_any_file (file : Bytes) (hfile : file.length ≤ 2147483648) (pieces : List Nat) (hpos : ∀ k ∈ pieces, 0 < k ∧ k ≤ 120)
    (hsum : pieces.sum = file.length) (t q : Nat) (hq : q = 0 ∨ q = 1) :
    download Ref.httpParser exCfg 300 ⟨some (fileSend file), some peerRecv⟩ (fun s => (s.1, [], [])) (ascii "/firmware.bin") (ascii "example.com") 1 0
      pieces 0 eHdr (peerResp q) ⟨(t, [], []), xMem, []⟩ = some file := by
  have hx := peerCallPre [] [] q hq
  have hset : Setup true Ref.httpParser exCfg ⟨some (fileSend file), some peerRecv⟩ (fileSend file) peerRecv eHdr 0 none 0 (peerResp q) q xMem :=
    { parser := hx.parser, hasSend := rfl, sendOk := (fun s d => by simp only [fileSend]; exact Int.ofNat_le.mpr (Nat.min_le_right _ _)), hasRecv := rfl
      recvOk := hx.recvOk, agent := by decide, reqBuf := rfl, reqRoom := by decide +kernel, reqSize := by decide
      buf := rfl, pos := hx.pos, room := hx.room, size := hx.size, callback := hx.callback, bodyNone := fun _ => rfl
      bodyRoom := (fun bb h => nomatch h), bodyMax := by decide }
  exact C89_download hset (fileServer file q) (serveFile_ok (ascii "/firmware.bin") file) (fun _ => rfl)
    (show ¬ ((0 : UInt32).toNat % 2 = 1) by decide) (by decide) (by decide) (by decide) (by decide) (fun _ => by decide) (by decide +kernel)
    (by decide) hfile hpos hsum (t, [], []) [] (by decide) (show 200 < 300 by decide)

end CoreHttp.Props

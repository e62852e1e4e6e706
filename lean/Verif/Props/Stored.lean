import Verif.Props.Download
import Verif.Spec.Stored

/-! # C101: the size of a file learnt with a HEAD request; C102: a file stored on a server and downloaded again -/

namespace CoreHttp.Props
open CoreHttp Spec
variable {σ : Type} {cfg : Cfg} {T : Transport σ} {send : σ → Bytes → Int × σ} {recv : σ → Nat → Int × Bytes × σ}
  {resp : Resp σ} {h : ReqHeaders} {b rb : Nat} {serve : Bytes → Bytes} {got rest : σ → Bytes} {body : Option Nat} {n : Nat}

/-- What is known after HTTPClient_InitializeRequestHeaders with room. -/
theorem init_built {m : Mem} {me path host : Bytes} {fl : UInt32} (hua : cfg.userAgent ≠ []) (hbuf : HasBuf m h rb) (hme : me ≠ []) (hpa : path ≠ [])
    (hho : host ≠ []) (hclh : CleanValue host) (hcu : fl.toNat.testBit 1 = false → CleanValue cfg.userAgent)
    (hroom : (requestBlock (requestLine me path) (documentedHeaders cfg.userAgent host fl.toNat)).length ≤ h.bufferLen)
    (hsize : h.bufferLen + h.bufferLen + 2 < 2 ^ cfg.sizeBits) :
    (∀ op ∈ [BuildOp.init (some ⟨some me, some path, some host, fl⟩)], OpOk cfg h.bufferLen op) ∧
    absRun cfg.userAgent none ([BuildOp.init (some ⟨some me, some path, some host, fl⟩)].zip [.success]) =
      some (requestLine me path, documentedHeaders cfg.userAgent host fl.toNat) ∧
    ∃ rh m1, runBuildOps cfg m h [.init (some ⟨some me, some path, some host, fl⟩)] = .ok ([.success], rh, m1) := by
  have hep : effectivePath (some path) = path := by
    unfold effectivePath
    cases path with
    | nil => exact absurd rfl hpa
    | cons x t => rfl
  refine ⟨?_, ?_, ?_⟩
  · intro op hop
    simp only [List.mem_cons, List.not_mem_nil, or_false] at hop
    subst hop
    refine ⟨?_, trivial⟩
    show h.bufferLen + (requestBlock (requestLine me (effectivePath (some path))) (documentedHeaders cfg.userAgent host fl.toNat)).length < _
    rw [hep]; omega
  · simp only [List.zip_cons_cons, List.zip_nil_right, absRun, absStep, hep]
  · obtain ⟨st, h1, m1, e1, hiff, _⟩ := C02_init_success_iff (cfg := cfg) (m := m) (h := h) (b := rb) (me := me) (ho := host) (path := some path)
      (flags := fl) hua hbuf hme hho (by rw [hep]; omega)
    have hst : st = .success := hiff.2 ⟨by rw [hep]; exact hroom, hclh, hcu⟩
    subst hst
    refine ⟨h1, m1, ?_⟩
    simp only [runBuildOps, runBuildOp, e1]; rfl

/-- After a call everything is set up for the next one, without a body. -/
theorem setup_after {m m1 : Mem} {ops : List BuildOp} {sts : List Status} {rh rh' : ReqHeaders} {me path : Bytes} {hs : List (Bytes × Bytes)}
    {s : σ} {l : List (Ev PLog)} {flags : UInt32} {fuel : Nat} {st : Status} {resp' : Resp σ} {w' : World PLog σ}
    (hset : Setup true Ref.httpParser cfg T send recv h rb body n resp b m) (hops : ∀ op ∈ ops, OpOk cfg h.bufferLen op)
    (e : runBuildOps cfg m h ops = .ok (sts, rh, m1))
    (habs : absRun cfg.userAgent none (ops.zip sts) = some (requestLine me path, hs))
    (e5 : HTTPClient_Send Ref.httpParser cfg fuel (some T) (some rh) body n (some resp) flags ⟨s, m1, l⟩ = (.ok (st, some rh', some resp'), w')) :
    Setup true Ref.httpParser cfg T send recv rh' rb none 0 resp' b w'.mem ∧ rh'.bufferLen = h.bufferLen ∧ SetUp (withClock resp) resp' := by
  obtain ⟨hp, hbl1, _, _, _, _⟩ := built hset hops e habs
  obtain ⟨rh2, resp3, he1, he2, hsu2, hb2, hbl2, _, _, _⟩ := send_leaves (w := ⟨s, m1, l⟩) hp e5
  cases he1; cases he2
  have hlen : ∀ i, (w'.mem i).length = (m i).length := by
    intro i
    obtain ⟨_, w2, e6, _, _, h3, _⟩ := C60_safe (w := ⟨s, m1, l⟩) (flags := flags) hp fuel
    rw [e5] at e6
    cases e6
    rw [h3 i]
    obtain ⟨_, _, _, e7, _, _, _, _, hfr, _⟩ := runBuildOps_spec hset.agent _ m h rb none hset.reqBuf hset.reqRoom hops
    rw [e] at e7
    cases e7
    by_cases hi : i = rb
    · subst hi; exact hfr.2.1
    · dsimp only; rw [hfr.1 i hi]
  refine ⟨?_, hbl2.trans hbl1, hsu2⟩
  obtain ⟨u1, u2, u3, u4, u5⟩ := hsu2
  exact
    { hset with
      reqBuf := hb2
      reqRoom := by rw [hbl2, hbl1, hlen]; exact hset.reqRoom
      reqSize := by rw [hbl2, hbl1]; exact hset.reqSize
      buf := u1.trans hset.buf
      pos := by rw [u2]; exact hset.pos
      room := by rw [u2, hlen]; exact hset.room
      size := by rw [u2]; exact hset.size
      callback := by rw [u3]; exact hset.callback
      bodyNone := (fun _ => rfl)
      bodyRoom := (fun bb h => nomatch h)
      bodyMax := by omega }

/-- A response object that was used works with the same server. -/
theorem server_after {resp' : Resp σ} (hS : Server serve got rest send recv resp) (hu : SetUp (withClock resp) resp') :
    Server serve got rest send recv resp' := by
  obtain ⟨u1, u2, u3, u4, u5⟩ := hu
  exact
    { hS with
      clock := fun f hf => hS.clock f (by
        rw [u4] at hf
        unfold withClock at hf
        dsimp only at hf
        cases hg : resp.getTime <;> rw [hg] at hf <;> first | exact hf | cases hf)
      header := fun c hc => hS.header c (by rw [u3] at hc; exact hc) }

theorem cut_sum (k n : Nat) : (cut k n).sum = n := by
  have h : ∀ j : Nat, (List.replicate j k).sum = k * j := by
    intro j
    induction j with
    | zero => rfl
    | succ j ih => rw [List.replicate_succ, List.sum_cons, ih, Nat.mul_succ, Nat.add_comm]
  have h0 := Nat.div_add_mod n k
  unfold cut
  rw [List.sum_append, h]
  by_cases hm : n % k = 0
  · rw [if_pos hm, List.sum_nil]; omega
  · rw [if_neg hm]; simp only [List.sum_cons, List.sum_nil]; omega

theorem cut_pos {k : Nat} (hk : 0 < k) (n : Nat) : ∀ j ∈ cut k n, 0 < j ∧ j ≤ k := by
  intro j hj
  unfold cut at hj
  rcases List.mem_append.mp hj with hj | hj
  · rw [List.eq_of_mem_replicate hj]; exact ⟨hk, Nat.le_refl _⟩
  · by_cases hm : n % k = 0
    · rw [if_pos hm] at hj; cases hj
    · rw [if_neg hm] at hj
      simp only [List.mem_cons, List.not_mem_nil, or_false] at hj
      subst hj
      have := Nat.mod_lt n hk
      omega

/-- **C101.** A server has a file and answers HEAD requests, stating its length in the Content-Length header, and range requests. The application, which does not
know the length, asks with HEAD and takes `contentLength` from the response object for the size; then it downloads that many bytes, `k` at a time. Whatever
headers and framing the server chooses, however the transport cuts up what is sent and received, whatever was in the buffers: no call fails – in particular
the call for HEAD does not wait for a body – and what the application has in the end is the file, byte for byte. -/
theorem C101_head_then_download {m : Mem} {path host file : Bytes} {fl sendFl : UInt32} {most k : Nat} {connect : σ → σ}
    (hset : Setup true Ref.httpParser cfg T send recv h rb none 0 resp b m) (hS : Server serve got rest send recv resp)
    (hH : HeadServer serve path file resp.bufferLen) (hR : RangeServer serve path file most resp.bufferLen)
    (hconn : ∀ s, got (connect s) = []) (hflag : ¬ headersOnly resp.respOptionFlags)
    (hpa : path ≠ []) (hclp : CleanValue path) (hho : host ≠ []) (hclh : CleanValue host)
    (hcu : fl.toNat.testBit 1 = false → CleanValue cfg.userAgent)
    (hroom : (requestBlock (requestLine (ascii "HEAD") path) (documentedHeaders cfg.userAgent host fl.toNat)).length + 35 ≤ h.bufferLen)
    (hsize : h.bufferLen + h.bufferLen + 2 < 2 ^ cfg.sizeBits) (hbits : file.length < 2 ^ cfg.sizeBits)
    (hk : 0 < k ∧ k ≤ most) (hfile : file.length ≤ 2147483648)
    (s : σ) (l : List (Ev PLog)) {fuel : Nat} (hf1 : h.bufferLen ≤ fuel) (hf3 : resp.bufferLen < fuel) :
    headFetch Ref.httpParser cfg fuel T connect path host fl sendFl k h resp ⟨s, m, l⟩ = some file := by
  obtain ⟨hops, habs, rh, m1, e⟩ := init_built (fl := fl) hset.agent ⟨hset.reqBuf, hset.reqRoom⟩ (show ascii "HEAD" ≠ [] by decide) hpa hho hclh hcu
    (by omega) hsize
  obtain ⟨hp, hbl1, hB, hne, hcl, hbd⟩ := built hset hops e habs
  have hal : autoLength 0 sendFl.toNat = [] := by unfold autoLength addsContentLength; simp
  have hread := wire_reads (me := ascii "HEAD") (path := path) (show CleanValue (ascii "HEAD") by decide) hclp hcl [] 0 sendFl.toNat
  have e4 : ascii "HEAD" ++ ascii " " = ascii "HEAD " := by decide
  rw [hal, List.append_nil, List.append_nil, e4] at hread
  obtain ⟨r, hok, hserve, hrs, hcode, hsays⟩ := hH _ _ hread
  obtain ⟨rh', resp2, w', evs, e5, hl, hrd, _, g⟩ := C64_end_to_end (flags := sendFl) (s := connect s) (l := l) (fuel := fuel) (got := got) (rest := rest)
    (head := true) (r := r) hset hops e habs (show CleanValue (ascii "HEAD") by decide) hclp (by rw [hal, List.append_nil]; omega) hok rfl hflag hrs
    (by
      have := server_peer hS (requestBlock (requestLine (ascii "HEAD") path) (documentedHeaders cfg.userAgent host fl.toNat))
      rw [hserve] at this
      rw [hal, List.append_nil]
      show Peer (_ ++ []) _ _ _ _ _ _
      rw [List.append_nil]; exact this)
    (hconn _) hf1 (by omega) hf3
  obtain ⟨hset2, hbl2, hu⟩ := setup_after hset hops e habs e5
  have hS2 := server_after hS hu
  obtain ⟨_, u2, _, _, u5⟩ := hu
  have hst : r.statedLength = file.length := by
    obtain ⟨⟨f, h1, h2⟩, _, _⟩ := hsays
    unfold Response.statedLength; rw [h1]; simp [h2]
  have hlen : resp2.contentLength = file.length := by rw [g.contentLength (by rw [hst]; exact hbits), hst]
  unfold headFetch
  dsimp only
  rw [e]
  dsimp only
  rw [e5]
  dsimp only
  rw [if_pos (by rw [g.statusCode]; exact hcode), hlen]
  have hGH : (requestBlock (requestLine (ascii "GET") path) (documentedHeaders cfg.userAgent host fl.toNat)).length + 1 =
      (requestBlock (requestLine (ascii "HEAD") path) (documentedHeaders cfg.userAgent host fl.toNat)).length := by
    unfold requestBlock requestLine
    simp only [List.length_append, show (ascii "GET").length = 3 by decide, show (ascii "HEAD").length = 4 by decide]
    omega
  have u2' : resp2.bufferLen = resp.bufferLen := u2
  exact C89_download (file := file) hset2 hS2 (by rw [u2']; exact hR) hconn (by rw [u5]; exact hflag) hpa hclp hho hclh hcu (by rw [hbl2]; omega)
    (by rw [hbl2]; exact hsize) hfile (fun j hj => ⟨(cut_pos hk.1 _ j hj).1, Nat.le_trans (cut_pos hk.1 _ j hj).2 hk.2⟩) (cut_sum _ _)
    w'.env w'.log (by rw [hbl2]; exact hf1) (by rw [u2']; exact hf3)

/-! ### C102 -/

variable {serves : Bytes → Bytes → Bytes} {held : σ → Bytes} {path : Bytes} {connect : σ → σ}

/-- What was received, marked when something else than `file` is stored. -/
def tagged (held got : σ → Bytes) (file : Bytes) (s : σ) : Bytes := if held s = file then got s else 0 :: got s

/-- As long as `file` is stored, the storing server is a peer. -/
theorem store_peer (hS : StoreServer serves path held got rest connect send recv resp) (file q : Bytes) (hq : q.head? ≠ some 0) :
    Peer q (serves file q) (tagged held got file) rest send recv resp :=
  { accepts := hS.accepts
    takes := fun s d => by
      unfold tagged
      rw [(hS.takes s d).1, (hS.takes s d).2]
      by_cases hc : held s = file
      · rw [if_pos hc, if_pos hc]
      · rw [if_neg hc, if_neg hc]; rfl
    answers := fun s d e => by
      unfold tagged at e
      by_cases hc : held (send s d).2 = file
      · rw [if_pos hc] at e
        rw [(hS.takes s d).2] at hc
        rw [hS.answers, hc, e]
      · rw [if_neg hc] at e
        subst e
        exact absurd rfl hq
    delivers := hS.delivers
    progress := hS.progress
    keeps := fun s len => by unfold tagged; rw [(hS.keeps s len).1, (hS.keeps s len).2]
    clock := fun f hf s => by
      obtain ⟨h1, h2, h3⟩ := hS.clock f hf s
      unfold tagged; rw [h1, h3]; exact ⟨rfl, h2⟩
    header := fun c hc s a f b v code => by
      obtain ⟨h1, h2, h3⟩ := hS.header c hc s a f b v code
      unfold tagged; rw [h1, h3]; exact ⟨rfl, h2⟩ }

theorem store_after {resp' : Resp σ} (hS : StoreServer serves path held got rest connect send recv resp) (hu : SetUp (withClock resp) resp') :
    StoreServer serves path held got rest connect send recv resp' := by
  obtain ⟨u1, u2, u3, u4, u5⟩ := hu
  exact
    { hS with
      clock := fun f hf => hS.clock f (by
        rw [u4] at hf
        unfold withClock at hf
        dsimp only at hf
        cases hg : resp.getTime <;> rw [hg] at hf <;> first | exact hf | cases hf)
      header := fun c hc => hS.header c (by rw [u3] at hc; exact hc) }

/-- The first line begins as the request does. -/
theorem readRequest_zero {x line rest : Bytes} {hs : List (Bytes × Bytes)} (e : readRequest (0 :: x) = some (line, hs, rest)) : line.head? = some 0 := by
  unfold readRequest takeLine at e
  rw [if_neg (by simp)] at e
  cases ht : takeLine x with
  | none => rw [ht] at e; cases e
  | some p =>
    rw [ht] at e
    simp only [Option.map_some, Option.bind_eq_bind, Option.bind_some] at e
    cases hh : readHeaders (p.2.length + 1) p.2 with
    | none => rw [hh] at e; cases e
    | some p2 => rw [hh] at e; cases e; rfl

/-- A request read from what was received, marked or not: it is not marked. -/
theorem untag {file : Bytes} {s : σ} {line tail : Bytes} {hs : List (Bytes × Bytes)} (e : readRequest (tagged held got file s) = some (line, hs, tail))
    (hl : line.head? ≠ some 0) : held s = file ∧ readRequest (got s) = some (line, hs, tail) := by
  unfold tagged at e
  by_cases hc : held s = file
  · rw [if_pos hc] at e; exact ⟨hc, e⟩
  · rw [if_neg hc] at e; exact absurd (readRequest_zero e) hl

theorem one_length (ua ho v : Bytes) (fl : Nat) :
    (documentedHeaders ua ho fl ++ [(ascii "Content-Length", v)]).filter (·.1 == ascii "Content-Length") = [(ascii "Content-Length", v)] := by
  have e1 : (ascii "User-Agent" == ascii "Content-Length") = false := by decide
  have e2 : (ascii "Host" == ascii "Content-Length") = false := by decide
  have e3 : (ascii "Connection" == ascii "Content-Length") = false := by decide
  have e4 : (ascii "Content-Length" == ascii "Content-Length") = true := by decide
  unfold documentedHeaders
  cases fl.testBit 1 <;> cases fl.testBit 0 <;> simp [List.filter_cons, e1, e2, e3, e4]

/-- **C102.** A server stores what is PUT at a path – it takes the body to be as long as the Content-Length header of the request says – and answers range
requests for what is stored. The application sends the bytes of a buffer with PUT, without any Content-Length header of its own, and downloads them
again piece by piece, with the same request and response object. Whatever was stored before, whatever framing and headers the server chooses for each answer,
however the transport cuts up what is sent and received, whatever was in the buffers: no call fails and the application gets back exactly the bytes
it sent. -/
theorem C102_store_then_download {m : Mem} {host : Bytes} {fl sendFl : UInt32} {most bb n : Nat}
    (hset : Setup true Ref.httpParser cfg T send recv h rb (some bb) n resp b m)
    (hS : StoreServer serves path held got rest connect send recv resp)
    (hW : PutServer serves path resp.bufferLen) (hR : ∀ file, RangeServer (serves file) path file most resp.bufferLen)
    (hflag : ¬ headersOnly resp.respOptionFlags) (hpa : path ≠ []) (hclp : CleanValue path) (hho : host ≠ []) (hclh : CleanValue host)
    (hcu : fl.toNat.testBit 1 = false → CleanValue cfg.userAgent)
    (hroom : (requestBlock (requestLine (ascii "PUT") path) (documentedHeaders cfg.userAgent host fl.toNat)).length + 36 ≤ h.bufferLen)
    (hsize : h.bufferLen + h.bufferLen + 2 < 2 ^ cfg.sizeBits)
    (hn : 0 < n) (hauto : sendFl.toNat.testBit 0 = false) {pieces : List Nat} (hpos : ∀ k ∈ pieces, 0 < k ∧ k ≤ most) (hsum : pieces.sum = n)
    (s : σ) (l : List (Ev PLog)) {fuel : Nat} (hf1 : h.bufferLen ≤ fuel) (hf2 : n ≤ fuel) (hf3 : resp.bufferLen < fuel) :
    storeFetch Ref.httpParser cfg fuel T connect path host fl sendFl bb n pieces h resp ⟨s, m, l⟩ = some ((m bb).take n) := by
  obtain ⟨hops, habs, rh, m1, e⟩ := init_built (fl := fl) hset.agent ⟨hset.reqBuf, hset.reqRoom⟩ (show ascii "PUT" ≠ [] by decide) hpa hho hclh hcu
    (by omega) hsize
  obtain ⟨hp, hbl1, hB, hne, hcl, hbd⟩ := built hset hops e habs
  have hal : autoLength n sendFl.toNat = [(ascii "Content-Length", decimal n)] := by
    unfold autoLength addsContentLength; rw [if_pos (by simp [hn, hauto])]
  have hbl : ((m bb).take n).length = n := by
    rw [List.length_take]; have := (hset.bodyRoom bb rfl).1; omega
  have hbo : bodyOf m (some bb) n = (m bb).take n := rfl
  have hread := wire_reads (me := ascii "PUT") (path := path) (show CleanValue (ascii "PUT") by decide) hclp hcl ((m bb).take n) n sendFl.toNat
  have e4 : ascii "PUT" ++ ascii " " = ascii "PUT " := by decide
  rw [hal, e4] at hread
  have hlens : ((documentedHeaders cfg.userAgent host fl.toNat ++ [(ascii "Content-Length", decimal n)]).filter (·.1 == ascii "Content-Length")).map
      (fun p => readDecimal p.2) = [some ((m bb).take n).length] := by
    rw [one_length, hbl, List.map_cons, List.map_nil, readDecimal_decimal]
  obtain ⟨r, hok, hserve, hrs, hc1, hc2⟩ := hW (held (connect s)) _ _ _ hread hlens
  have hcon : tagged held got (held (connect s)) (connect s) = [] := by
    unfold tagged; rw [if_pos rfl]; exact (hS.connects s).1
  have hdl : (decimal n).length ≤ 10 := decimal_length_le (k := 9) (by have := hset.bodyMax; omega)
  obtain ⟨rh', resp2, w', evs, e5, hl, hrd, _, g⟩ := C64_end_to_end (flags := sendFl) (s := connect s) (l := l) (fuel := fuel)
    (got := tagged held got (held (connect s))) (rest := rest)
    (head := false) (r := r) hset hops e habs (show CleanValue (ascii "PUT") by decide) hclp
    (by
      rw [hal]
      have : (requestBlock (requestLine (ascii "PUT") path) (documentedHeaders cfg.userAgent host fl.toNat ++ [(ascii "Content-Length", decimal n)])).length =
          (requestBlock (requestLine (ascii "PUT") path) (documentedHeaders cfg.userAgent host fl.toNat)).length + 18 + (decimal n).length := by
        unfold requestBlock
        rw [headerLines_append, headerLines_cons]
        simp only [List.length_append, headerLine_length, show (ascii "Content-Length").length = 14 by decide,
          show (headerLines []).length = 0 from rfl]
        omega
      rw [this]; omega)
    hok
    (by
      simp only [Bool.false_eq_true, if_false]
      intro hpre
      unfold requestLine at hpre
      have := List.prefix_iff_eq_take.mp hpre
      have h2 := congrArg (fun x : Bytes => x[0]?) this
      revert h2
      simp [ascii])
    hflag hrs
    (by
      rw [hal, hbo, ← hserve]
      exact store_peer hS _ _ (by
        have : ascii "PUT" = 80 :: ascii "UT" := by decide
        unfold requestBlock requestLine; rw [this]; simp))
    hcon hf1 hf2 hf3
  obtain ⟨hset2, hbl2, hu⟩ := setup_after hset hops e habs e5
  have hS2 := store_after hS hu
  obtain ⟨_, u2, _, _, u5⟩ := hu
  have u2' : resp2.bufferLen = resp.bufferLen := u2
  rw [hal, hbo, e4] at hrd
  obtain ⟨_, hgot⟩ := untag hrd (by
    have : ascii "PUT " = 80 :: ascii "UT " := by decide
    rw [this]; simp)
  have hst : ∀ x, stored path x (got w'.env) = (m bb).take n := by
    intro x
    unfold stored
    rw [hgot]
    dsimp only
    rw [if_pos ⟨rfl, hlens⟩]
  have hcon2 : tagged held got ((m bb).take n) (connect w'.env) = [] := by
    unfold tagged
    rw [(hS.connects w'.env).2, hst, if_pos rfl]; exact (hS.connects _).1
  unfold storeFetch
  dsimp only
  rw [e]
  dsimp only
  rw [e5]
  dsimp only
  rw [if_pos (by rw [g.statusCode]; exact ⟨hc1, hc2⟩)]
  have hGP : (requestBlock (requestLine (ascii "GET") path) (documentedHeaders cfg.userAgent host fl.toNat)).length =
      (requestBlock (requestLine (ascii "PUT") path) (documentedHeaders cfg.userAgent host fl.toNat)).length := by
    unfold requestBlock requestLine
    simp only [List.length_append, show (ascii "GET").length = 3 by decide, show (ascii "PUT").length = 3 by decide]
  have hG : ascii "GET " = 71 :: ascii "ET " := by decide
  have hmax := hset.bodyMax
  refine download_gen (file := (m bb).take n) (got := tagged held got ((m bb).take n)) (rest := rest) (serve := serves ((m bb).take n)) hset2 ?_
    (by rw [u2']; exact hR _) ?_ (by rw [u5]; exact hflag) hpa hclp hho hclh hcu
    (by rw [hbl2, hGP]; exact hroom) (by rw [hbl2]; exact hsize) (by rw [hbl]; omega) hpos (by rw [hbl]; exact hsum) w'.env hcon2 w'.log
    (by rw [hbl2]; exact hf1) (by rw [u2']; exact hf3)
  · intro q hs hq
    refine store_peer hS2 _ q ?_
    intro h0
    cases q with
    | nil => cases h0
    | cons x t =>
      cases h0
      have := readRequest_zero hq
      rw [hG] at this
      simp at this
  · intro s' hs hq
    obtain ⟨h1, h2⟩ := untag hq (by rw [hG]; simp)
    have : stored path ((m bb).take n) (got s') = (m bb).take n := by
      unfold stored
      rw [h2]
      dsimp only
      rw [if_neg]
      rintro ⟨h3, _⟩
      have hP : ascii "PUT " = 80 :: ascii "UT " := by decide
      rw [hG, hP] at h3
      simp at h3
    unfold tagged
    rw [(hS.connects s').2, h1, this, if_pos rfl]; exact (hS.connects _).1

/-! ### Non-vacuity: a server that answers HEAD, PUT and range requests -/

/-- To a HEAD request: the length of the file. -/
def headAnswer (file : Bytes) : Response := { partAnswer file with code := 200, reason := ascii "OK", content := .none }
/-- To a PUT request. -/
def putAnswer : Response := { partAnswer (ascii "stored") with code := 201, reason := ascii "Created" }

theorem headAnswer_ok (file : Bytes) (hf : file.length < 18446744073709551615) : (headAnswer file).Ok true ∧ (headAnswer file).SaysLength file.length := by
  have h := partAnswer_ok file hf
  have hs : (headAnswer file).SaysLength file.length := h.content.2
  exact ⟨⟨by show 100 ≤ 200 ∧ 200 ≤ 999; decide, show ∀ c ∈ ascii "OK", c ≠ 13 ∧ c ≠ 10 by decide +kernel, h.fields, ⟨.inl rfl, .inr ⟨_, hs⟩⟩⟩, hs⟩

theorem headAnswer_length (file : Bytes) (hf : file.length < 10 ^ 10) : (headAnswer file).bytes.length ≤ 80 := by
  have h1 := decimal_length_le (k := 9) hf
  have e1 : (ascii "HTTP/1.1 ").length = 9 := by decide
  have e2 : (ascii "OK").length = 2 := by decide
  have e3 : (ascii "Content-Length").length = 14 := by decide
  have e4 : (ascii " ").length = 1 := by decide
  have e5 : (ascii "Connection").length = 10 := by decide
  have e6 : (ascii "close").length = 5 := by decide
  simp only [headAnswer, partAnswer, Response.bytes, Response.head, section_, Content.bytes, Version.text, digits3, crlf, Field.line, List.map_cons, List.map_nil,
    List.flatten_cons, List.flatten_nil, List.length_append, List.length_cons, List.length_nil, e1, e2, e3, e4, e5, e6]
  omega

theorem putAnswer_ok : putAnswer.Ok false := by
  have h := partAnswer_ok (ascii "stored") (by decide)
  exact ⟨by show 100 ≤ 201 ∧ 201 ≤ 999; decide, show ∀ c ∈ ascii "Created", c ≠ 13 ∧ c ≠ 10 by decide +kernel, h.fields, h.content⟩

/-- The server, with `file` stored. -/
def serveAll (file q : Bytes) : Bytes :=
  match readRequest q with
  | some (72 :: _, _, _) => (headAnswer file).bytes
  | some (80 :: _, _, _) => putAnswer.bytes
  | _ => serveFile file q

theorem serveAll_head (path file : Bytes) (hf : file.length < 10 ^ 10) : HeadServer (serveAll file) path file 200 := by
  intro q hs hq
  refine ⟨headAnswer file, (headAnswer_ok file (by omega)).1, ?_, ?_, rfl, (headAnswer_ok file (by omega)).2⟩
  · have : ascii "HEAD " = 72 :: ascii "EAD " := by decide
    unfold serveAll
    rw [hq, this]; rfl
  · have := headAnswer_length file hf; omega

theorem serveAll_range (path file : Bytes) : RangeServer (serveAll file) path file 120 200 := by
  intro q hs v first last hq hf hv h1 h2 h3
  obtain ⟨r, h4, h5, h6⟩ := serveFile_ok path file q hs v first last hq hf hv h1 h2 h3
  refine ⟨r, h4, ?_, h6⟩
  have : ascii "GET " = 71 :: ascii "ET " := by decide
  unfold serveAll
  rw [hq, this]; exact h5

theorem serveAll_put (path : Bytes) : PutServer serveAll path 200 := by
  intro file q hs body hq _
  refine ⟨putAnswer, putAnswer_ok, ?_, by decide +kernel, by decide, by decide⟩
  have : ascii "PUT " = 80 :: ascii "UT " := by decide
  unfold serveAll
  rw [hq, this]; rfl

/-- It accepts at most 7 bytes at a time. -/
def allSend (file : Bytes) : PeerEnv → Bytes → Int × PeerEnv := fun s d =>
  (((min 7 d.length : Nat) : Int), s.1 + 1, s.2.1 ++ d.take 7, serveAll file (s.2.1 ++ d.take 7))

theorem allServer (file : Bytes) (q : Nat) :
    Server (serveAll file) (fun s => s.2.1) (fun s => s.2.2) (allSend file) peerRecv (peerResp q) :=
  { accepts := (peer_ok [] [] q).accepts
    takes := (peer_ok [] [] q).takes
    answers := fun _ _ => rfl
    delivers := (peer_ok [] [] q).delivers
    progress := (peer_ok [] [] q).progress
    keeps := (peer_ok [] [] q).keeps
    clock := (peer_ok [] [] q).clock
    header := (peer_ok [] [] q).header }

/-- Any file of at most 2^31 bytes (also an empty one), in pieces of any size up to 120 bytes. -/
theorem C101_any_file (file : Bytes) (hfile : file.length ≤ 2147483648) {k : Nat} (hk : 0 < k ∧ k ≤ 120) (t q : Nat) (hq : q = 0 ∨ q = 1) :
    headFetch Ref.httpParser exCfg 300 ⟨some (allSend file), some peerRecv⟩ (fun s => (s.1, [], [])) (ascii "/firmware.bin") (ascii "example.com") 1 0
      k eHdr (peerResp q) ⟨(t, [], []), xMem, []⟩ = some file := by
  have hx := peerCallPre [] [] q hq
  have hset : Setup true Ref.httpParser exCfg ⟨some (allSend file), some peerRecv⟩ (allSend file) peerRecv eHdr 0 none 0 (peerResp q) q xMem :=
    { parser := hx.parser, hasSend := rfl, sendOk := (fun s d => by simp only [allSend]; exact Int.ofNat_le.mpr (Nat.min_le_right _ _)), hasRecv := rfl
      recvOk := hx.recvOk, agent := by decide, reqBuf := rfl, reqRoom := by decide +kernel, reqSize := by decide
      buf := rfl, pos := hx.pos, room := hx.room, size := hx.size, callback := hx.callback, bodyNone := fun _ => rfl
      bodyRoom := (fun bb h => nomatch h), bodyMax := by decide }
  exact C101_head_then_download hset (allServer file q) (serveAll_head (ascii "/firmware.bin") file (by omega)) (serveAll_range (ascii "/firmware.bin") file)
    (fun _ => rfl) (show ¬ ((0 : UInt32).toNat % 2 = 1) by decide) (by decide) (by decide) (by decide) (by decide) (fun _ => by decide) (by decide +kernel)
    (by decide) (by have : exCfg.sizeBits = 32 := rfl
                    rw [this]; omega) hk hfile (t, [], []) [] (by decide) (show 200 < 300 by decide)

/-- The environment, and what is stored. -/
abbrev StoreEnv := PeerEnv × Bytes
def storeSend : StoreEnv → Bytes → Int × StoreEnv := fun s d => ((allSend s.2 s.1 d).1, (allSend s.2 s.1 d).2, s.2)
def storeRecv : StoreEnv → Nat → Int × Bytes × StoreEnv := fun s n => ((peerRecv s.1 n).1, (peerRecv s.1 n).2.1, (peerRecv s.1 n).2.2, s.2)
def storeConnect (path : Bytes) : StoreEnv → StoreEnv := fun s => ((s.1.1, [], []), stored path s.2 s.1.2.1)
def storeResp (q : Nat) : Resp StoreEnv :=
  ⟨some q, 200, some (.user fun s _ _ _ _ _ => s), .user (fun s => (UInt32.ofNat s.1.1, s)), some 3, 4, some 5, 6, 999, 77, 8, 1, 0, 3⟩

theorem storeServer (path : Bytes) (q : Nat) :
    StoreServer serveAll path (fun s => s.2) (fun s => s.1.2.1) (fun s => s.1.2.2) (storeConnect path) storeSend storeRecv (storeResp q) where
  accepts := fun s d hd => (allServer s.2 q).accepts s.1 d hd
  takes := fun s d => ⟨(allServer s.2 q).takes s.1 d, rfl⟩
  answers := fun _ _ => rfl
  delivers := fun s n => (allServer s.2 q).delivers s.1 n
  progress := fun s n => (allServer s.2 q).progress s.1 n
  keeps := fun _ _ => ⟨rfl, rfl⟩
  connects := fun _ => ⟨rfl, rfl⟩
  clock := fun f hf s => by cases hf; exact ⟨rfl, rfl, rfl⟩
  header := fun c hc s a f b v code => by cases hc; exact ⟨rfl, rfl, rfl⟩

/-- Any bytes, from 1 to 2^31 - 1 of them, whatever was stored before; the response may have the request buffer (`q = 0`), its own (`q = 1`), or even – if it is
large enough – the buffer of the bytes stored (`q = 2`). -/
theorem C102_any_file (d old : Bytes) (hd : 0 < d.length ∧ d.length ≤ 2147483647) (pieces : List Nat) (hpos : ∀ k ∈ pieces, 0 < k ∧ k ≤ 120)
    (hsum : pieces.sum = d.length) (t q : Nat) (hq : q = 0 ∨ q = 1 ∨ (q = 2 ∧ 200 ≤ d.length)) :
    storeFetch Ref.httpParser exCfg (300 + d.length) ⟨some storeSend, some storeRecv⟩ (storeConnect (ascii "/x")) (ascii "/x") (ascii "example.com") 1 0
      2 d.length pieces eHdr (storeResp q) ⟨((t, [], []), old), fun i => if i = 2 then d else List.replicate 200 7, []⟩ = some d := by
  have hset : Setup true Ref.httpParser exCfg ⟨some storeSend, some storeRecv⟩ storeSend storeRecv eHdr 0 (some 2) d.length (storeResp q) q
      (fun i => if i = 2 then d else List.replicate 200 7) :=
    { parser := Ref.httpParser_ok, hasSend := rfl
      sendOk := (fun s d => by simp only [storeSend, allSend]; exact Int.ofNat_le.mpr (Nat.min_le_right _ _)), hasRecv := rfl
      recvOk := (fun s n => peerRecv_ok s.1 n)
      agent := by decide, reqBuf := rfl, reqRoom := (show 190 ≤ (List.replicate 200 (7 : UInt8)).length by decide +kernel), reqSize := by decide
      buf := rfl, pos := (by show 0 < 200; decide)
      room := (by
        show 200 ≤ _
        rcases hq with rfl | rfl | ⟨rfl, h⟩
        · show 200 ≤ (List.replicate 200 (7 : UInt8)).length; decide +kernel
        · show 200 ≤ (List.replicate 200 (7 : UInt8)).length; decide +kernel
        · exact h)
      size := (by show 200 < 2 ^ 32; decide), callback := by simp [storeResp], bodyNone := (fun h => nomatch h)
      bodyRoom := (fun bb h => by cases h; exact ⟨Nat.le_refl _, by decide⟩), bodyMax := hd.2 }
  have := C102_store_then_download hset (storeServer (ascii "/x") q) (serveAll_put (ascii "/x")) (serveAll_range (ascii "/x"))
    (host := ascii "example.com") (fl := 1) (sendFl := 0) (pieces := pieces) (fuel := 300 + d.length)
    (show ¬ ((0 : UInt32).toNat % 2 = 1) by decide) (by decide) (by decide) (by decide) (by decide) (fun _ => by decide) (by decide +kernel)
    (by decide) hd.1 (by decide) hpos hsum ((t, [], []), old) [] (by have : eHdr.bufferLen = 190 := rfl
                                                                     omega) (by omega) (by show 200 < 300 + d.length; omega)
  rw [this]
  simp

end CoreHttp.Props

import Verif.Props.Discover
import Verif.Props.Aliasing
import Verif.Spec.Redirect

/-! # C96: following redirects -/

namespace CoreHttp.Props
open CoreHttp Spec Ref Machine
variable {σ : Type} {cfg : Cfg} {T : Transport σ} {send : σ → Bytes → Int × σ} {recv : σ → Nat → Int × Bytes × σ}
  {resp : Resp σ} {h : ReqHeaders} {b rb : Nat} {serve : Bytes → Bytes} {got rest : σ → Bytes}

theorem requestBlock_path (me p : Bytes) (hs : List (Bytes × Bytes)) :
    (requestBlock (requestLine me p) hs).length = p.length + (requestBlock (requestLine me []) hs).length := by
  simp only [requestBlock, requestLine, List.length_append, List.length_nil]; omega

/-- A GET request for a path given by pointer. -/
theorem get_request {m : Mem} {path host : Bytes} {fl sendFl : UInt32} {src : Src}
    (hset : Setup true httpParser cfg T send recv h rb none 0 resp b m) (hpa : path ≠ []) (hclp : CleanValue path) (hho : host ≠ []) (hclh : CleanValue host)
    (hcu : fl.toNat.testBit 1 = false → CleanValue cfg.userAgent)
    (hroom : (requestBlock (requestLine (ascii "GET") path) (documentedHeaders cfg.userAgent host fl.toNat)).length ≤ h.bufferLen)
    (hsize : h.bufferLen + h.bufferLen + 2 < 2 ^ cfg.sizeBits)
    (hr : src.Readable m) (hb : src.bytes m = path) (hclear : ∀ lo hi, src.Clear rb lo hi) :
    ∃ rh m1, HTTPClient_InitializeRequestHeadersP cfg m (some h) (some ⟨some (.lit (ascii "GET")), some src, some (.lit host), fl⟩) =
        .ok (.success, some rh, m1) ∧
      CallPre true httpParser cfg T send recv rh rb none 0 resp b m1 ∧ rh.bufferLen = h.bufferLen ∧ (∀ i, (m1 i).length = (m i).length) ∧
      ReqIs false (headerBlock m1 rh) ∧
      ∃ hs, readRequest (wireRequest m1 rh none 0 sendFl) = some (ascii "GET " ++ path ++ ascii " HTTP/1.1", hs, []) := by
  have hep : effectivePath (some path) = path := by
    unfold effectivePath
    cases path with
    | nil => exact absurd rfl hpa
    | cons x t => rfl
  have hep' : effectivePath ((some src).map (Src.bytes m)) = path := by rw [Option.map_some, hb, hep]
  have hoff : hostOffset cfg.userAgent (ascii "GET") path fl.toNat ≤ (requestBlock (requestLine (ascii "GET") path) (documentedHeaders cfg.userAgent host fl.toNat)).length := by
    unfold hostOffset requestBlock documentedHeaders
    have e6 : (ascii "Host: ").length = 6 := by decide
    have e4 : (ascii "Host").length = 4 := by decide
    cases fl.toNat.testBit 1 <;> cases fl.toNat.testBit 0 <;>
      simp [headerLines, headerLine_length, e6, e4] <;> omega
  have e75 := C75_init (cfg := cfg) (m := m) (h := h) (b := rb) (me := .lit (ascii "GET")) (ho := .lit host) (path := some src) (fl := fl)
    ⟨hset.reqBuf, hset.reqRoom⟩ hset.agent trivial (fun s hs => by cases hs; exact hr) trivial
    (by rw [hep']; exact Nat.lt_of_le_of_lt hoff (by omega)) trivial (fun s hs => by cases hs; exact hclear _ _) trivial
  rw [Option.map_some, hb] at e75
  obtain ⟨st, rh, m1, e1, hiff, _⟩ := C02_init_success_iff (cfg := cfg) (m := m) (h := h) (b := rb) (me := ascii "GET") (ho := host) (path := some path)
    (flags := fl) hset.agent ⟨hset.reqBuf, hset.reqRoom⟩ (by decide) hho (by rw [hep]; omega)
  have hst : st = .success := hiff.2 ⟨by rw [hep]; exact hroom, hclh, hcu⟩
  subst hst
  have e0 : runBuildOps cfg m h [.init (some ⟨some (ascii "GET"), some path, some host, fl⟩)] = .ok ([.success], rh, m1) := by
    simp only [runBuildOps, runBuildOp, e1]; rfl
  have hops : ∀ op ∈ [BuildOp.init (some ⟨some (ascii "GET"), some path, some host, fl⟩)], OpOk cfg h.bufferLen op := by
    intro op hop
    simp only [List.mem_cons, List.not_mem_nil, or_false] at hop
    subst hop
    refine ⟨?_, trivial⟩
    show h.bufferLen + (requestBlock (requestLine (ascii "GET") (effectivePath (some path))) (documentedHeaders cfg.userAgent host fl.toNat)).length < _
    rw [hep]; omega
  have habs : Spec.absRun cfg.userAgent none ([BuildOp.init (some ⟨some (ascii "GET"), some path, some host, fl⟩)].zip [.success]) =
      some (requestLine (ascii "GET") path, documentedHeaders cfg.userAgent host fl.toNat) := by
    simp only [List.zip_cons_cons, List.zip_nil_right, Spec.absRun, Spec.absStep, hep]
  obtain ⟨hp, hbl1, hB, hne, hcl, hbd⟩ := built hset hops e0 habs
  have hal : autoLength 0 sendFl.toNat = [] := by unfold autoLength addsContentLength; simp
  have hw := wireHeaders_block (line := requestLine (ascii "GET") path) hne 0 sendFl.toNat
  have hread := wire_reads (me := ascii "GET") (path := path) (show CleanValue (ascii "GET") by decide) hclp hcl [] 0 sendFl.toNat
  have e4 : ascii "GET" ++ ascii " " = ascii "GET " := by decide
  rw [e4, hal, List.append_nil, List.append_nil] at hread
  rw [hal, List.append_nil] at hw
  refine ⟨rh, m1, e75.trans e1, hp, hbl1, ?_, ?_, documentedHeaders cfg.userAgent host fl.toNat, ?_⟩
  · intro i
    obtain ⟨_, _, _, e7, _, _, _, _, hfr, _⟩ := runBuildOps_spec hset.agent _ m h rb none hset.reqBuf hset.reqRoom hops
    rw [e0] at e7
    cases e7
    by_cases hi : i = rb
    · subst hi; exact hfr.2.1
    · rw [hfr.1 i hi]
  · show ¬ ascii "HEAD" <+: headerBlock m1 rh
    rw [hB]
    intro hpre
    unfold requestBlock requestLine at hpre
    have := List.prefix_iff_eq_take.mp hpre
    have h2 := congrArg (fun x : Bytes => x[0]?) this
    revert h2
    simp [ascii]
  · unfold wireRequest
    rw [hB, hw]
    show readRequest (_ ++ []) = _
    rw [List.append_nil]
    exact hread

/-- **C96.** A server has a site on which a path leads, by any number of redirects, to a response. The application asks for the path; when the answer is a redirect it looks up Location
and asks for the path found there, with the same objects. The path given to HTTPClient_InitializeRequestHeaders is the pointer into the response buffer that
HTTPClient_ReadHeader returned (then request and response buffer must be different), or a copy. No call fails and what the application has in the end is exactly that response. -/
theorem C96_follow {m : Mem} {host : Bytes} {fl sendFl : UInt32} {connect : σ → σ} {site : Bytes → Option Response} {most : Nat} {copy : Bool}
    (hset : Setup true httpParser cfg T send recv h rb none 0 resp b m) (hS : Server serve got rest send recv resp)
    (hR : SiteServer serve site resp.bufferLen) (hconn : ∀ s, got (connect s) = []) (hflag : ¬ headersOnly resp.respOptionFlags)
    (hho : host ≠ []) (hclh : CleanValue host) (hcu : fl.toNat.testBit 1 = false → CleanValue cfg.userAgent)
    (hroom : most + (requestBlock (requestLine (ascii "GET") []) (documentedHeaders cfg.userAgent host fl.toNat)).length ≤ h.bufferLen)
    (hsize : h.bufferLen + h.bufferLen + 2 < 2 ^ cfg.sizeBits) (hcopy : copy = true ∨ b ≠ rb)
    {path : Bytes} (hpa : path ≠ []) (hclp : CleanValue path) (hpl : path.length ≤ most) {k : Nat} {r : Response} (hleads : LeadsTo site most path k r)
    {hops : Nat} (hhops : k < hops)
    (s : σ) (l : List (Ev PLog)) {fuel : Nat} (hf1 : h.bufferLen ≤ fuel) (hf3 : resp.bufferLen < fuel) :
    ∃ resp' w' before evs, follow httpParser cfg fuel T connect host fl sendFl copy hops (.lit path) h resp ⟨s, m, l⟩ = some (resp', w') ∧
      w'.log = before ++ evs ∧ l <+: before ∧ Got cfg r resp.pHeaderParsingCallback.isSome evs w'.mem resp' := by
  have key : ∀ (path : Bytes) (k : Nat) (r : Response), LeadsTo site most path k r → ∀ (hops : Nat) (src : Src) (h' : ReqHeaders) (resp' : Resp σ) (w : World PLog σ),
      path ≠ [] → CleanValue path → path.length ≤ most → k < hops → src.Readable w.mem → src.bytes w.mem = path → (∀ lo hi, src.Clear rb lo hi) →
      h'.bufferLen = h.bufferLen → resp'.bufferLen = resp.bufferLen → resp'.pHeaderParsingCallback = resp.pHeaderParsingCallback →
      Setup true httpParser cfg T send recv h' rb none 0 resp' b w.mem → Server serve got rest send recv resp' → ¬ headersOnly resp'.respOptionFlags →
      ∃ resp2 w2 before evs, follow httpParser cfg fuel T connect host fl sendFl copy hops src h' resp' w = some (resp2, w2) ∧
        w2.log = before ++ evs ∧ w.log <+: before ∧ Got cfg r resp.pHeaderParsingCallback.isSome evs w2.mem resp2 := by
    intro path k r hleads
    induction hleads with
    | @here path r hsite hno =>
      intro hops src h' resp' w hpa hclp hpl hk hr hb hclear hbl hrl hcb hset hS hflag
      obtain ⟨hops, rfl⟩ : ∃ j, hops = j + 1 := ⟨hops - 1, by omega⟩
      obtain ⟨rh, m1, e, hp, hbl1, hlen1, hreq, hs, hread⟩ := get_request (sendFl := sendFl) hset hpa hclp hho hclh hcu
        (by rw [requestBlock_path, hbl]; omega) (by rw [hbl]; exact hsize) hr hb hclear
      obtain ⟨ok, hserve, hrs⟩ := hR _ path hs r hread hsite
      have hw0 : wireHeaders (headerBlock m1 rh) 0 sendFl.toNat = headerBlock m1 rh := by
        unfold wireHeaders addsContentLength; simp
      have hP := server_peer hS (wireRequest m1 rh none 0 sendFl)
      rw [hserve] at hP
      obtain ⟨rh', resp2, w', evs, e5, hl, _, _, _, _, g⟩ := C58_exchange (w := ⟨connect w.env, m1, w.log⟩) (flags := sendFl) (fuel := fuel) (got := got)
        (rest := rest) (head := false) (r := r) hp ok hreq hflag (by rw [hrl]; exact hrs)
        (by
          dsimp only
          rw [hw0]
          have h1 := hp.reqLe
          unfold headerBlock; rw [hp.reqBuf]; simp only [List.length_take]; omega)
        hP (hconn _) (by omega) (by omega) (by omega)
      refine ⟨resp2, w', w.log, evs, ?_, hl, List.prefix_rfl, by rw [← hcb]; exact g⟩
      unfold follow
      rw [e]
      dsimp only
      rw [e5]
      dsimp only
      rw [if_neg (by rw [g.statusCode]; exact hno)]
    | @hop path r f pre post k r' hsite hre hfs hf hpre hv hcv hvl _ ih =>
      intro hops src h' resp' w hpa hclp hpl hk hr hb hclear hbl hrl hcb hset hS hflag
      obtain ⟨hops, rfl⟩ : ∃ j, hops = j + 1 := ⟨hops - 1, by omega⟩
      obtain ⟨rh, m1, e, hp, hbl1, hlen1, hreq, hs, hread⟩ := get_request (sendFl := sendFl) hset hpa hclp hho hclh hcu
        (by rw [requestBlock_path, hbl]; omega) (by rw [hbl]; exact hsize) hr hb hclear
      obtain ⟨ok, hserve, hrs⟩ := hR _ path hs r hread hsite
      have hw0 : wireHeaders (headerBlock m1 rh) 0 sendFl.toNat = headerBlock m1 rh := by
        unfold wireHeaders addsContentLength; simp
      have hP := server_peer hS (wireRequest m1 rh none 0 sendFl)
      rw [hserve] at hP
      obtain ⟨rh', resp2, w', evs, e5, hl, _, _, _, _, g⟩ := C58_exchange (w := ⟨connect w.env, m1, w.log⟩) (flags := sendFl) (fuel := fuel) (got := got)
        (rest := rest) (head := false) (r := r) hp ok hreq hflag (by rw [hrl]; exact hrs)
        (by
          dsimp only
          rw [hw0]
          have h1 := hp.reqLe
          unfold headerBlock; rw [hp.reqBuf]; simp only [List.length_take]; omega)
        hP (hconn _) (by omega) (by omega) (by omega)
      obtain ⟨rh2, resp3, he1, he2, hsu2, hb2, hbl2, _, _, _⟩ := send_leaves (w := ⟨connect w.env, m1, w.log⟩) hp e5
      cases he1; cases he2
      obtain ⟨u1, u2, u3, u4, u5⟩ := hsu2
      have hlen : ∀ i, (w'.mem i).length = (w.mem i).length := by
        intro i
        obtain ⟨_, w2, e6, _, _, h3, _⟩ := C60_safe (w := ⟨connect w.env, m1, w.log⟩) (flags := sendFl) hp fuel
        rw [e5] at e6
        cases e6
        rw [h3 i]; exact hlen1 i
      have hbuf : resp2.pBuffer = some b := u1.trans hset.buf
      have hroom2 : resp2.bufferLen ≤ (w'.mem b).length := by rw [u2, hlen]; exact hset.room
      obtain ⟨loc, len, w2, e6, hmem, rfl, _, hd⟩ := C65_lookup (w := w') (resp := resp2) (name := ascii "Location") (f := f) hbuf hroom2 ok
        (by
          have h1 : r.bytes.length = r.head.length + r.content.bytes.length := by simp [Response.bytes]
          have h2 : resp2.bufferLen = resp.bufferLen := by rw [u2]; exact hrl
          omega)
        (g.head b hbuf) (by decide)
        ⟨pre, post, hfs, hf, hpre⟩ none 0
      obtain ⟨a, rfl, hin, hval⟩ := hd hv
      have hlog : w'.log <+: w2.log := by
        obtain ⟨_, _, _, log', e7, _⟩ := readHeader_run (w := w') (resp := resp2) (b := b) (name := ascii "Location")
          ⟨httpParser_ok, hbuf, by rw [u2]; exact hset.pos, hroom2, by decide⟩ none 0
        rw [e6] at e7
        cases e7
        exact List.prefix_append _ _
      unfold follow
      rw [e]
      dsimp only
      rw [e5]
      dsimp only
      rw [if_pos (by rw [g.statusCode]; exact hre), e6, hbuf]
      dsimp only
      have hval2 : ((w2.mem b).drop a).take f.value.length = f.value := by rw [hmem]; exact hval
      obtain ⟨resp4, w4, before, evs4, e9, hl9, hpre9, g9⟩ := ih hops (if copy then .lit (((w2.mem b).drop a).take f.value.length) else .at b a f.value.length) rh' resp2 w2 hv hcv hvl (by omega)
        (by
          cases copy with
          | true => exact trivial
          | false =>
            show a + f.value.length ≤ (w2.mem b).length
            have := congrArg List.length hval2
            simp only [List.length_take, List.length_drop] at this
            have h0 : f.value.length ≠ 0 := fun h => hv (List.length_eq_zero_iff.mp h)
            omega)
        (by cases copy with
          | true => exact hval2
          | false => exact hval2)
        (by
          intro lo hi
          cases copy with
          | true => exact trivial
          | false => rcases hcopy with h | h
                     · cases h
                     · exact .inl h)
        (by rw [hbl2, hbl1, hbl]) (by rw [u2]; exact hrl) (by rw [u3]; exact hcb)
        { hset with
            reqBuf := hb2
            reqRoom := by rw [hbl2, hbl1, hmem, hlen]; exact hset.reqRoom
            reqSize := by rw [hbl2, hbl1]; exact hset.reqSize
            buf := hbuf
            pos := by rw [u2]; exact hset.pos
            room := by rw [hmem]; exact hroom2
            size := by rw [u2]; exact hset.size
            callback := by rw [u3]; exact hset.callback
            bodyRoom := (fun bb h => nomatch h) }
        { hS with
            clock := fun f hf => hS.clock f (by
              rw [u4] at hf
              unfold withClock at hf
              dsimp only at hf
              cases hg : resp'.getTime <;> rw [hg] at hf <;> first | exact hf | cases hf)
            header := fun c hc => hS.header c (by rw [u3] at hc; exact hc) }
        (by rw [u5]; exact hflag)
      refine ⟨resp4, w4, before, evs4, e9, hl9, ?_, g9⟩
      have hl' : w.log <+: w'.log := ⟨evs, hl.symm⟩
      exact (hl'.trans hlog).trans hpre9
  exact key path k r hleads hops (.lit path) h resp ⟨s, m, l⟩ hpa hclp hpl hhops trivial rfl (fun _ _ => trivial) rfl rfl rfl hset hS hflag

/-! ### Non-vacuity: a site with chains of redirects of any length up to 60 -/

/-- `/aaa…a` with `n` letters. -/
def aPath (n : Nat) : Bytes := 47 :: List.replicate n 97

/-- The last page. -/
def lastPage : Response := ⟨.v11, 200, ascii "OK", [⟨ascii "Content-Length", ascii " ", ascii "4"⟩], .length (ascii "done")⟩

/-- The page that redirects to `to`; another Location follows the first. -/
def movedPage (to : Bytes) : Response :=
  ⟨.v10, 302, ascii "Found", [⟨ascii "Content-Length", [], ascii "0"⟩, ⟨ascii "LOCATION", ascii " ", to⟩, ⟨ascii "Location", [], ascii "/x"⟩], .length []⟩

/-- The site: from `/aaa` to `/aa` and so on to `/`. -/
def aSite (p : Bytes) : Option Response :=
  if p = aPath 0 then some lastPage
  else if p = aPath (p.length - 1) ∧ p.length ≤ 61 then some (movedPage (aPath (p.length - 2)))
  else none

/-- Its server. -/
def serveSite (q : Bytes) : Bytes :=
  match readRequest q with
  | some (line, _, []) => match aSite ((line.drop 4).take (line.length - 13)) with
    | some r => r.bytes
    | none => []
  | _ => []

theorem lastPage_ok : lastPage.Ok false where
  code := by decide
  reason := by decide +kernel
  fields := by
    intro f hf
    simp only [lastPage, List.mem_cons, List.not_mem_nil, or_false] at hf
    subst hf
    exact fieldOk_of (by decide +kernel)
  content := by
    refine ⟨rfl, ⟨⟨ascii "Content-Length", ascii " ", ascii "4"⟩, by decide +kernel, by decide +kernel⟩, by decide, ?_⟩
    intro f hf
    simp only [lastPage, List.mem_cons, List.not_mem_nil, or_false] at hf
    subst hf
    decide +kernel

theorem aPath_clean (n : Nat) : ∀ c ∈ aPath n, c = 47 ∨ c = 97 := by
  intro c hc
  rcases List.mem_cons.mp hc with rfl | hc
  · exact .inl rfl
  · exact .inr (List.mem_replicate.mp hc).2

theorem aPath_value (n : Nat) : CleanValue (aPath n) := by
  intro c hc
  rcases aPath_clean n c hc with rfl | rfl <;> decide

theorem movedPage_ok (n : Nat) : (movedPage (aPath n)).Ok false where
  code := by show 100 ≤ 302 ∧ 302 ≤ 999; decide
  reason := show ∀ c ∈ ascii "Found", c ≠ 13 ∧ c ≠ 10 by decide +kernel
  fields := by
    intro f hf
    simp only [movedPage, List.mem_cons, List.not_mem_nil, or_false] at hf
    rcases hf with rfl | rfl | rfl
    · exact fieldOk_of (by decide +kernel)
    · refine ⟨⟨show ascii "LOCATION" ≠ [] by decide, show ∀ c ∈ ascii "LOCATION", isTokenChar c = true by decide +kernel⟩,
        show ∀ c ∈ ascii " ", c = 32 ∨ c = 9 by decide, ?_, ?_⟩
      · intro c hc
        rcases aPath_clean n c hc with rfl | rfl <;> decide
      · constructor <;> simp [aPath]
    · exact fieldOk_of (by decide +kernel)
  content := by
    have k1 : (⟨ascii "LOCATION", ascii " ", aPath n⟩ : Field).name.map lowerAscii = ascii "location" := by
      show (ascii "LOCATION").map lowerAscii = _
      decide +kernel
    have k2 : ¬ ascii "location" = ascii "content-length" := by decide
    refine ⟨rfl, ⟨⟨ascii "Content-Length", [], ascii "0"⟩, ?_, by decide +kernel⟩, by decide, ?_⟩
    · unfold Response.lengths movedPage
      dsimp only
      rw [List.filter_cons_of_pos (by decide +kernel), List.filter_cons_of_neg (by
        simp only [decide_eq_true_eq]; unfold Field.is; rw [k1]; exact k2), List.filter_cons_of_neg (by decide +kernel)]
      rfl
    · intro f hf
      simp only [movedPage, List.mem_cons, List.not_mem_nil, or_false] at hf
      rcases hf with rfl | rfl | rfl
      · decide +kernel
      · unfold Field.is; rw [k1]; decide
      · decide +kernel

theorem movedPage_length (n : Nat) : (movedPage (aPath n)).bytes.length ≤ 90 + n := by
  have e1 : (ascii "HTTP/1.0 ").length = 9 := by decide
  have e2 : (ascii "Found").length = 5 := by decide
  have e3 : (ascii "Content-Length").length = 14 := by decide
  have e4 : (ascii " ").length = 1 := by decide
  have e5 : (ascii "LOCATION").length = 8 := by decide
  have e6 : (ascii "Location").length = 8 := by decide
  have e7 : (ascii "0").length = 1 := by decide
  have e8 : (ascii "/x").length = 2 := by decide
  simp only [movedPage, aPath, Response.bytes, Response.head, section_, Content.bytes, Version.text, digits3, crlf, Field.line, List.map_cons, List.map_nil,
    List.flatten_cons, List.flatten_nil, List.length_append, List.length_cons, List.length_nil, List.length_replicate, e1, e2, e3, e4, e5, e6, e7, e8]
  omega

theorem serveSite_ok : SiteServer serveSite aSite 200 := by
  intro q path hs r hq hr
  have hpath : ((ascii "GET " ++ path ++ ascii " HTTP/1.1").drop 4).take ((ascii "GET " ++ path ++ ascii " HTTP/1.1").length - 13) = path := by
    have e1 : (ascii "GET ").length = 4 := by decide
    have e2 : (ascii " HTTP/1.1").length = 9 := by decide
    rw [List.append_assoc, List.drop_left' e1, show (ascii "GET " ++ (path ++ ascii " HTTP/1.1")).length - 13 = path.length by
      simp only [List.length_append, e1, e2]; omega]
    exact List.take_left
  have hserve : serveSite q = r.bytes := by
    unfold serveSite
    rw [hq]; dsimp only
    rw [hpath, hr]
  refine ⟨?_, hserve, ?_⟩
  · unfold aSite at hr
    by_cases h1 : path = aPath 0
    · rw [if_pos h1] at hr; cases hr; exact lastPage_ok
    · rw [if_neg h1] at hr
      by_cases h2 : path = aPath (path.length - 1) ∧ path.length ≤ 61
      · rw [if_pos h2] at hr; cases hr; exact movedPage_ok _
      · rw [if_neg h2] at hr; cases hr
  · unfold aSite at hr
    by_cases h1 : path = aPath 0
    · rw [if_pos h1] at hr; cases hr; decide +kernel
    · rw [if_neg h1] at hr
      by_cases h2 : path = aPath (path.length - 1) ∧ path.length ≤ 61
      · rw [if_pos h2] at hr; cases hr; have := movedPage_length (path.length - 2); omega
      · rw [if_neg h2] at hr; cases hr

theorem aSite_leads : ∀ n, n ≤ 60 → LeadsTo aSite 61 (aPath n) n lastPage
  | 0, _ => .here (by unfold aSite; rw [if_pos rfl]) (by decide)
  | n + 1, hn => by
    have hl : (aPath (n + 1)).length = n + 2 := by simp [aPath]
    refine .hop (r := movedPage (aPath n)) (f := ⟨ascii "LOCATION", ascii " ", aPath n⟩) (pre := [⟨ascii "Content-Length", [], ascii "0"⟩])
      (post := [⟨ascii "Location", [], ascii "/x"⟩]) ?_ (show redirects 302 by decide) rfl ?_ ?_ (by simp [aPath]) (aPath_value n) (by simp [aPath]; omega) (aSite_leads n (by omega))
    · unfold aSite
      rw [if_neg (by intro h; have := congrArg List.length h; rw [hl] at this; simp [aPath] at this), hl]
      rw [if_pos ⟨rfl, by omega⟩]
      rfl
    · exact (C56_compare (s := ascii "Location") (t := ascii "LOCATION") (n := 8) (by decide) (by decide)).2.1 (by decide +kernel)
    · intro g hg hs
      simp only [List.mem_cons, List.not_mem_nil, or_false] at hg
      subst hg
      have hl := hs.1
      revert hl; decide

/-- A server for the site; it accepts at most 7 bytes at a time. -/
def siteSend : PeerEnv → Bytes → Int × PeerEnv := fun s d =>
  (((min 7 d.length : Nat) : Int), s.1 + 1, s.2.1 ++ d.take 7, serveSite (s.2.1 ++ d.take 7))

/-- Up to 60 redirects, with the path used where it is (request and response in different buffers) or copied (also with a shared buffer). -/
theorem C96_chain (n : Nat) (hn : n ≤ 60) (t q : Nat) (copy : Bool) (hq : q = 1 ∨ (q = 0 ∧ copy = true)) :
    ∃ resp' w', follow httpParser exCfg 300 ⟨some siteSend, some peerRecv⟩ (fun s => (s.1, [], [])) (ascii "example.com") 1 0 copy 61 (.lit (aPath n)) eHdr
      (peerResp q) ⟨(t, [], []), xMem, []⟩ = some (resp', w') ∧ resp'.statusCode = 200 ∧ bodyBytes w'.mem resp' = ascii "done" := by
  have hx := peerCallPre [] [] q (by omega)
  have hset : Setup true httpParser exCfg ⟨some siteSend, some peerRecv⟩ siteSend peerRecv eHdr 0 none 0 (peerResp q) q xMem :=
    { parser := hx.parser, hasSend := rfl, sendOk := (fun s d => by simp only [siteSend]; exact Int.ofNat_le.mpr (Nat.min_le_right _ _)), hasRecv := rfl
      recvOk := hx.recvOk, agent := by decide, reqBuf := rfl, reqRoom := by decide +kernel, reqSize := by decide
      buf := rfl, pos := hx.pos, room := hx.room, size := hx.size, callback := hx.callback, bodyNone := fun _ => rfl
      bodyRoom := (fun bb h => nomatch h), bodyMax := by decide }
  have hS : Server serveSite (fun s => s.2.1) (fun s => s.2.2) siteSend peerRecv (peerResp q) :=
    { accepts := (peer_ok [] [] q).accepts
      takes := (peer_ok [] [] q).takes
      answers := fun _ _ => rfl
      delivers := (peer_ok [] [] q).delivers
      progress := (peer_ok [] [] q).progress
      keeps := (peer_ok [] [] q).keeps
      clock := (peer_ok [] [] q).clock
      header := (peer_ok [] [] q).header }
  obtain ⟨resp', w', _, evs, e, _, _, g⟩ := C96_follow (host := ascii "example.com") (fl := 1) (sendFl := 0) (connect := fun s : PeerEnv => (s.1, [], [])) (site := aSite) (most := 61)
    (copy := copy) (path := aPath n) (hops := 61) hset hS serveSite_ok (fun _ => rfl)
    (show ¬ ((0 : UInt32).toNat % 2 = 1) by decide) (by decide) (by decide) (fun _ => by decide) (by decide +kernel) (by decide)
    (by rcases hq with rfl | ⟨_, h⟩ <;> first | exact .inl h | exact .inr (by decide))
    (by simp [aPath]) (aPath_value n) (by simp [aPath]; omega) (aSite_leads n hn) (by omega) (t, [], []) [] (fuel := 300) (by decide) (show 200 < 300 by decide)
  exact ⟨resp', w', e, g.statusCode, by rw [g.body]; rfl⟩

end CoreHttp.Props

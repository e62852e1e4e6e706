import Verif.Props.Resume
import Verif.Props.Lookup
import Verif.Spec.Discover

/-! # C92: downloading a file of unknown size -/

namespace CoreHttp.Props
open CoreHttp Spec Ref Machine
variable {σ : Type} {cfg : Cfg} {T : Transport σ} {send : σ → Bytes → Int × σ} {recv : σ → Nat → Int × Bytes × σ}
  {resp : Resp σ} {h : ReqHeaders} {b rb : Nat} {serve : Bytes → Bytes} {got rest : σ → Bytes}

/-- **C92.** A server has a file that is not empty and answers range requests, stating the length of the file in the Content-Range header. The application does
not know the length. It asks for `k` bytes at a time and looks the length up with HTTPClient_ReadHeader, until it has as many bytes. Whatever framing, header
order and other headers the server chooses, however the transport cuts up what is sent and received, whatever was in the buffers: no call fails and what
the application has in the end is the file, byte for byte. -/
theorem C92_fetch {m : Mem} {path host file : Bytes} {fl sendFl : UInt32} {most k : Nat} {connect : σ → σ}
    (hset : Setup true httpParser cfg T send recv h rb none 0 resp b m) (hS : Server serve got rest send recv resp)
    (hR : SizedServer serve path file most resp.bufferLen) (hconn : ∀ s, got (connect s) = []) (hflag : ¬ headersOnly resp.respOptionFlags)
    (hpa : path ≠ []) (hclp : CleanValue path) (hho : host ≠ []) (hclh : CleanValue host)
    (hcu : fl.toNat.testBit 1 = false → CleanValue cfg.userAgent)
    (hroom : (requestBlock (requestLine (ascii "GET") path) (documentedHeaders cfg.userAgent host fl.toNat)).length + 36 ≤ h.bufferLen)
    (hsize : h.bufferLen + h.bufferLen + 2 < 2 ^ cfg.sizeBits)
    (hk : 0 < k ∧ k ≤ most) (hne : file ≠ []) (hfile : file.length + k ≤ 2147483649) {rounds : Nat} (hrounds : file.length ≤ rounds * k)
    (s : σ) (l : List (Ev PLog)) {fuel : Nat} (hf1 : h.bufferLen ≤ fuel) (hf3 : resp.bufferLen < fuel) :
    fetch httpParser cfg fuel T connect path host fl sendFl k rounds [] h resp ⟨s, m, l⟩ = some file := by
  have key : ∀ (n : Nat) (acc : Bytes) (h' : ReqHeaders) (resp' : Resp σ) (w : World PLog σ), acc <+: file → acc.length < file.length →
      file.length ≤ acc.length + n * k → h'.bufferLen = h.bufferLen → resp'.bufferLen = resp.bufferLen →
      Setup true httpParser cfg T send recv h' rb none 0 resp' b w.mem → Server serve got rest send recv resp' → ¬ headersOnly resp'.respOptionFlags →
      fetch httpParser cfg fuel T connect path host fl sendFl k n acc h' resp' w = some file := by
    intro n
    induction n with
    | zero => intro acc h' resp' w _ h1 h2 _ _ _ _ _; omega
    | succ n ih =>
      intro acc h' resp' w hacc hlt hn hbl hrl hset hS hflag
      have hn' : (n + 1) * k = n * k + k := by rw [Nat.add_mul, Nat.one_mul]
      obtain ⟨hops, rh, m1, e⟩ := build_range (m := w.mem) (first := acc.length) (last := acc.length + k - 1) hset.agent ⟨hset.reqBuf, hset.reqRoom⟩
        (show ascii "GET" ≠ [] by decide) hpa hho hclh hcu (by rw [hbl]; exact hroom) (by rw [hbl]; exact hsize) (by omega) (by omega)
      obtain ⟨hp, hbl1, hlen1, hreq, hs, hread, hone⟩ := range_request (sendFl := sendFl) hset hpa hclp (by rw [hbl]; omega) (by rw [hbl]; omega)
        ⟨by omega, by omega⟩ e
      obtain ⟨r, ok, hserve, hrs, hcode, hdata, pre, f, post, hfs, hf, hpre, htot⟩ := hR _ hs _ acc.length (acc.length + k - 1) hread hone
        (readRange_rangeText _) (by omega) hlt (by omega)
      have hw0 : wireHeaders (headerBlock m1 rh) 0 sendFl.toNat = headerBlock m1 rh := by
        unfold wireHeaders addsContentLength; simp
      have hP := server_peer hS (wireRequest m1 rh none 0 sendFl)
      rw [hserve] at hP
      obtain ⟨rh', resp2, w', evs, e5, hl, _, _, _, _, g⟩ := C58_exchange (w := ⟨connect w.env, m1, w.log⟩) (flags := sendFl) (fuel := fuel) (got := got)
        (rest := rest) (head := false) (r := r) hp ok hreq hflag (by rw [hrl]; exact hrs)
        (by
          dsimp only
          rw [hw0]
          have h1 := hp.reqLe
          unfold headerBlock; rw [hp.reqBuf]; simp only [List.length_take]; omega)
        hP (hconn _) (by omega) (by omega) (by omega)
      obtain ⟨rh2, resp3, he1, he2, hsu2, hb2, hbl2, _, _, _⟩ := send_leaves (w := ⟨connect w.env, m1, w.log⟩) hp e5
      cases he1; cases he2
      obtain ⟨u1, u2, u3, u4, u5⟩ := hsu2
      have hlen : ∀ i, (w'.mem i).length = (w.mem i).length := by
        intro i
        obtain ⟨_, w2, e6, _, _, h3, _⟩ := C60_safe (w := ⟨connect w.env, m1, w.log⟩) (flags := sendFl) hp fuel
        rw [e5] at e6
        cases e6
        rw [h3 i]; exact hlen1 i
      have hbuf : resp2.pBuffer = some b := u1.trans hset.buf
      have hroom2 : resp2.bufferLen ≤ (w'.mem b).length := by rw [u2, hlen]; exact hset.room
      obtain ⟨loc, len, w2, e6, hmem, hdel⟩ := C65_lookup (w := w') (resp := resp2) (name := ascii "Content-Range") (f := f) hbuf hroom2 ok
        (by
          have h1 : r.bytes.length = r.head.length + r.content.bytes.length := by simp [Response.bytes]
          have h2 : resp2.bufferLen = resp.bufferLen := by rw [u2]; exact hrl
          omega)
        (g.head b hbuf) (by decide)
        ⟨pre, post, hfs, hf, hpre⟩ none 0
      have hval : valueAt w2.mem resp2 loc len = f.value := by
        obtain ⟨d1, d2, d3⟩ := hdel
        unfold valueAt
        rw [hbuf, hmem]
        by_cases hv : f.value = []
        · rw [d2 hv, hv]
        · obtain ⟨a, ha, _, h2⟩ := d3 hv
          rw [ha]; exact h2
      have hbody : bodyBytes w2.mem resp2 = (file.drop acc.length).take k := by
        rw [hmem, g.body, hdata, show acc.length + k - 1 + 1 - acc.length = k by omega]
      have hacc2 : acc ++ (file.drop acc.length).take k <+: file := by
        obtain ⟨u, rfl⟩ := hacc
        rw [List.drop_left]
        exact ⟨u.drop k, by rw [List.append_assoc, List.take_append_drop]⟩
      have hlacc : (acc ++ (file.drop acc.length).take k).length = acc.length + min k (file.length - acc.length) := by
        rw [List.length_append, List.length_take, List.length_drop]
      unfold fetch
      rw [e]
      dsimp only
      rw [e5]
      dsimp only
      rw [if_pos (by rw [g.statusCode]; exact hcode), e6]
      dsimp only
      rw [hval, htot, hbody]
      dsimp only
      by_cases hend : (acc ++ (file.drop acc.length).take k).length < file.length
      · rw [if_pos hend]
        refine ih _ rh' resp2 w2 hacc2 hend (by rw [hlacc]; omega) (by rw [hbl2, hbl1, hbl]) (by rw [u2]; exact hrl) ?_ ?_ (by rw [u5]; exact hflag)
        · exact
          { hset with
            reqBuf := hb2
            reqRoom := by rw [hbl2, hbl1, hmem, hlen]; exact hset.reqRoom
            reqSize := by rw [hbl2, hbl1]; exact hset.reqSize
            buf := hbuf
            pos := by rw [u2]; exact hset.pos
            room := by rw [hmem]; exact hroom2
            size := by rw [u2]; exact hset.size
            callback := by rw [u3]; exact hset.callback
            bodyRoom := (fun bb h => nomatch h) }
        · exact
          { hS with
            clock := fun f hf => hS.clock f (by
              rw [u4] at hf
              unfold withClock at hf
              dsimp only at hf
              cases hg : resp'.getTime <;> rw [hg] at hf <;> first | exact hf | cases hf)
            header := fun c hc => hS.header c (by rw [u3] at hc; exact hc) }
      · rw [if_neg hend]
        obtain ⟨t, ht⟩ := hacc2
        have : t = [] := by
          have h1 := congrArg List.length ht
          rw [List.length_append] at h1
          exact List.eq_nil_of_length_eq_zero (by omega)
        rw [this, List.append_nil] at ht
        rw [ht]
  exact key rounds [] h resp ⟨s, m, l⟩ List.nil_prefix (List.length_pos_iff.mpr hne) (by simpa using hrounds) rfl rfl hset hS hflag

/-! ### Non-vacuity: a server for any file -/

/-- The answer with these bytes of a file of `total` bytes, from `a` on; another Content-Range header follows the first one. -/
def sizedAnswer (d : Bytes) (a total : Nat) : Response :=
  { partAnswer d with fields := (partAnswer d).fields ++
      [⟨ascii "CONTENT-range", ascii " ", ascii "bytes " ++ decimal a ++ ascii "-" ++ decimal (a + d.length - 1) ++ ascii "/" ++ decimal total⟩,
       ⟨ascii "Content-Range", [], ascii "none"⟩] }

/-- A server for `file`. -/
def serveSized (file q : Bytes) : Bytes :=
  match readRequest q with
  | some (_, hs, []) =>
    match hs.filter (·.1 == ascii "Range") with
    | [(_, v)] =>
      match readRange v with
      | some (.fromTo a b) => (sizedAnswer ((file.drop a).take (b + 1 - a)) a file.length).bytes
      | _ => []
    | _ => []
  | _ => []

theorem digit_of {n : Nat} {c : UInt8} (hc : c ∈ decimal n) {x : UInt8} (hx : x.toNat < 48 ∨ 57 < x.toNat) : c ≠ x := by
  rintro rfl
  have := decimal_digits n c hc
  omega

theorem sized_value (a b total : Nat) (v : Bytes) (hv : v = ascii "bytes " ++ decimal a ++ ascii "-" ++ decimal b ++ ascii "/" ++ decimal total) :
    completeLength v = some total ∧ (∀ c ∈ v, c ≠ 13 ∧ c ≠ 10 ∧ c ≠ 0) ∧ v.head? = some 98 := by
  have e6 : ascii "bytes " = [98, 121, 116, 101, 115, 32] := by decide
  have e7 : ascii "-" = [45] := by decide
  have e8 : ascii "/" = [47] := by decide
  subst hv
  refine ⟨?_, ?_, by rw [e6]; rfl⟩
  · unfold completeLength
    rw [if_pos (by simp only [List.append_assoc]; exact List.prefix_append _ _)]
    have hd : (ascii "bytes " ++ decimal a ++ ascii "-" ++ decimal b ++ ascii "/" ++ decimal total).dropWhile (· ≠ 47) = 47 :: decimal total := by
      have h1 : ∀ c ∈ ascii "bytes " ++ decimal a ++ ascii "-" ++ decimal b, (decide (c ≠ 47)) = true := by
        intro c hc
        simp only [List.mem_append] at hc
        rcases hc with ((hc | hc) | hc) | hc
        · revert c; rw [e6]; decide
        · simp only [ne_eq, decide_not, Bool.not_eq_true', decide_eq_false_iff_not]; exact digit_of hc (by decide)
        · revert c; rw [e7]; decide
        · simp only [ne_eq, decide_not, Bool.not_eq_true', decide_eq_false_iff_not]; exact digit_of hc (by decide)
      rw [List.append_assoc, List.dropWhile_append_of_pos h1, e8]
      rfl
    rw [hd]
    exact readDecimal_decimal total
  · intro c hc
    simp only [List.mem_append] at hc
    rcases hc with ((((hc | hc) | hc) | hc) | hc) | hc
    · revert c; rw [e6]; decide
    · exact ⟨digit_of hc (by decide), digit_of hc (by decide), digit_of hc (by decide)⟩
    · revert c; rw [e7]; decide
    · exact ⟨digit_of hc (by decide), digit_of hc (by decide), digit_of hc (by decide)⟩
    · revert c; rw [e8]; decide
    · exact ⟨digit_of hc (by decide), digit_of hc (by decide), digit_of hc (by decide)⟩

theorem sizedAnswer_ok (d : Bytes) (a total : Nat) (hd : d.length < 18446744073709551615) : (sizedAnswer d a total).Ok false where
  code := (partAnswer_ok d hd).code
  reason := (partAnswer_ok d hd).reason
  fields := by
    intro f hf
    rcases List.mem_append.mp hf with hf | hf
    · exact (partAnswer_ok d hd).fields f hf
    · simp only [List.mem_cons, List.not_mem_nil, or_false] at hf
      rcases hf with rfl | rfl
      · obtain ⟨_, h2, h3⟩ := sized_value a (a + d.length - 1) total _ rfl
        exact ⟨⟨show ascii "CONTENT-range" ≠ [] by decide, show ∀ c ∈ ascii "CONTENT-range", isTokenChar c = true by decide +kernel⟩,
          show ∀ c ∈ ascii " ", c = 32 ∨ c = 9 by decide, h2, by dsimp only; rw [h3]; decide, by dsimp only; rw [h3]; decide⟩
      · exact fieldOk_of (by decide +kernel)
  content := by
    obtain ⟨h1, ⟨f, h2, h3⟩, h4, h5⟩ := (partAnswer_ok d hd).content
    refine ⟨rfl, ⟨f, ?_, h3⟩, h4, ?_⟩
    · have h6 : (sizedAnswer d a total).lengths = (partAnswer d).lengths ++ [] := by
        unfold Response.lengths sizedAnswer
        dsimp only
        rw [List.filter_append]
        congr 1
      rw [h6, List.append_nil]; exact h2
    · intro g hg
      rcases List.mem_append.mp hg with hg | hg
      · exact h5 g hg
      · simp only [List.mem_cons, List.not_mem_nil, or_false] at hg
        rcases hg with rfl | rfl
        · show ¬ (ascii "CONTENT-range").map lowerAscii = ascii "transfer-encoding"; decide +kernel
        · show ¬ (ascii "Content-Range").map lowerAscii = ascii "transfer-encoding"; decide +kernel

theorem sizedAnswer_length (d : Bytes) (a total : Nat) (hd : d.length < 10 ^ 10) (h1 : a < 10 ^ 10) (h2 : a + d.length - 1 < 10 ^ 10) (h3 : total < 10 ^ 10) :
    (sizedAnswer d a total).bytes.length ≤ 156 + d.length := by
  have k1 := decimal_length_le (k := 9) hd
  have k2 := decimal_length_le (k := 9) h1
  have k3 := decimal_length_le (k := 9) h2
  have k4 := decimal_length_le (k := 9) h3
  have e1 : (ascii "HTTP/1.1 ").length = 9 := by decide
  have e2 : (ascii "Partial Content").length = 15 := by decide
  have e3 : (ascii "Content-Length").length = 14 := by decide
  have e4 : (ascii " ").length = 1 := by decide
  have e5 : (ascii "Connection").length = 10 := by decide
  have e6 : (ascii "close").length = 5 := by decide
  have e7 : (ascii "CONTENT-range").length = 13 := by decide
  have e8 : (ascii "Content-Range").length = 13 := by decide
  have e9 : (ascii "none").length = 4 := by decide
  have e10 : (ascii "bytes ").length = 6 := by decide
  have e11 : (ascii "-").length = 1 := by decide
  have e12 : (ascii "/").length = 1 := by decide
  simp only [sizedAnswer, partAnswer, Response.bytes, Response.head, section_, Content.bytes, Version.text, digits3, crlf, Field.line, List.map_cons, List.map_nil,
    List.cons_append, List.nil_append,
    List.flatten_cons, List.flatten_nil, List.length_append, List.length_cons, List.length_nil, e1, e2, e3, e4, e5, e6, e7, e8, e9, e10, e11, e12]
  omega

theorem serveSized_ok (path file : Bytes) (hf : file.length ≤ 2147483648) : SizedServer (serveSized file) path file 40 200 := by
  intro q hs v first last hq hh hv h1 h2 h3
  have hl : ((file.drop first).take (last + 1 - first)).length ≤ 40 := by rw [List.length_take]; omega
  refine ⟨sizedAnswer ((file.drop first).take (last + 1 - first)) first file.length, sizedAnswer_ok _ _ _ (by omega), ?_, ?_, rfl, rfl, ?_⟩
  · unfold serveSized
    rw [hq]; dsimp only
    rw [hh]; dsimp only
    rw [hv]
  · have := sizedAnswer_length ((file.drop first).take (last + 1 - first)) first file.length (by omega) (by omega) (by omega) (by omega)
    omega
  · refine ⟨(partAnswer ((file.drop first).take (last + 1 - first))).fields, _, _, rfl, ?_, ?_, (sized_value _ _ _ _ rfl).1⟩
    · exact (C56_compare (s := ascii "Content-Range") (t := ascii "CONTENT-range") (n := 13) (by decide) (by decide)).2.1 (by decide +kernel)
    · intro g hg hs'
      have hl := hs'.1
      simp only [partAnswer, List.mem_cons, List.not_mem_nil, or_false] at hg
      rcases hg with rfl | rfl <;> (dsimp only at hl; revert hl; decide)

/-- It accepts at most 7 bytes at a time. -/
def sizedSend (file : Bytes) : PeerEnv → Bytes → Int × PeerEnv := fun s d =>
  (((min 7 d.length : Nat) : Int), s.1 + 1, s.2.1 ++ d.take 7, serveSized file (s.2.1 ++ d.take 7))

/-- Any file that is not empty, of at most 2^31 - 39 bytes, asked for 40 bytes at a time. -/
theorem C92_any_file (file : Bytes) (hne : file ≠ []) (hfile : file.length ≤ 2147483609) (t q : Nat) (hq : q = 0 ∨ q = 1) :
    fetch httpParser exCfg 300 ⟨some (sizedSend file), some peerRecv⟩ (fun s => (s.1, [], [])) (ascii "/firmware.bin") (ascii "example.com") 1 0
      40 file.length [] eHdr (peerResp q) ⟨(t, [], []), xMem, []⟩ = some file := by
  have hx := peerCallPre [] [] q hq
  have hset : Setup true httpParser exCfg ⟨some (sizedSend file), some peerRecv⟩ (sizedSend file) peerRecv eHdr 0 none 0 (peerResp q) q xMem :=
    { parser := hx.parser, hasSend := rfl, sendOk := (fun s d => by simp only [sizedSend]; exact Int.ofNat_le.mpr (Nat.min_le_right _ _)), hasRecv := rfl
      recvOk := hx.recvOk, agent := by decide, reqBuf := rfl, reqRoom := by decide +kernel, reqSize := by decide
      buf := rfl, pos := hx.pos, room := hx.room, size := hx.size, callback := hx.callback, bodyNone := fun _ => rfl
      bodyRoom := (fun bb h => nomatch h), bodyMax := by decide }
  have hS : Server (serveSized file) (fun s => s.2.1) (fun s => s.2.2) (sizedSend file) peerRecv (peerResp q) :=
    { accepts := (peer_ok [] [] q).accepts
      takes := (peer_ok [] [] q).takes
      answers := fun _ _ => rfl
      delivers := (peer_ok [] [] q).delivers
      progress := (peer_ok [] [] q).progress
      keeps := (peer_ok [] [] q).keeps
      clock := (peer_ok [] [] q).clock
      header := (peer_ok [] [] q).header }
  exact C92_fetch hset hS (serveSized_ok (ascii "/firmware.bin") file (by omega)) (fun _ => rfl)
    (show ¬ ((0 : UInt32).toNat % 2 = 1) by decide) (by decide) (by decide) (by decide) (by decide) (fun _ => by decide) (by decide +kernel)
    (by decide) ⟨by decide, Nat.le_refl _⟩ hne (by omega) (by omega) (t, [], []) [] (by decide) (show 200 < 300 by decide)

end CoreHttp.Props

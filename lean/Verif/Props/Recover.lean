import Verif.Props.Resume
import Verif.Spec.Recover

/-! # C97: a download over unreliable connections is completed when enough of them are reliable -/

namespace CoreHttp.Props
open CoreHttp Spec Ref Machine
variable {σ : Type} {cfg : Cfg} {resp : Resp σ} {h : ReqHeaders} {b rb : Nat} {serves : Bytes → Bytes → Prop} {serve : Bytes → Bytes} {got rest : σ → Bytes}

/-- One attempt on a reliable connection, if the request was built. -/
theorem reliable_attempt {T : Transport σ} {send : σ → Bytes → Int × σ} {recv : σ → Nat → Int × Bytes × σ} {m m1 : Mem} {rh : ReqHeaders}
    {path host file : Bytes} {fl sendFl : UInt32} {most first last : Nat} {s : σ} {l : List (Ev PLog)}
    (hset : Setup true httpParser cfg T send recv h rb none 0 resp b m) (hpa : path ≠ []) (hclp : CleanValue path)
    (hsize : h.bufferLen + 38 < 2 ^ cfg.sizeBits)
    (hsize' : h.bufferLen + (requestBlock (requestLine (ascii "GET") path) (documentedHeaders cfg.userAgent host fl.toNat)).length < 2 ^ cfg.sizeBits)
    (hmax : first ≤ 2147483647 ∧ last ≤ 2147483647) (hS : Server serve got rest send recv resp) (hR : RangeServer serve path file most resp.bufferLen)
    (hflag : ¬ headersOnly resp.respOptionFlags) (hle : first ≤ last) (hlast : last < file.length) (hmost : last + 1 - first ≤ most)
    (e : runBuildOps cfg m h [.init (some ⟨some (ascii "GET"), some path, some host, fl⟩), .addRange first last] = .ok ([.success, .success], rh, m1))
    (hgot : got s = []) {fuel : Nat} (hf1 : h.bufferLen ≤ fuel) (hf3 : resp.bufferLen < fuel) :
    ∃ rh' resp' w', HTTPClient_Send httpParser cfg fuel (some T) (some rh) none 0 (some resp) sendFl ⟨s, m1, l⟩ = (.ok (.success, some rh', some resp'), w') ∧
      resp'.statusCode = 206 ∧ bodyBytes w'.mem resp' = (file.drop first).take (last + 1 - first) := by
  obtain ⟨hp, hbl1, hlen1, hreq, hs, hread, hone⟩ := range_request (sendFl := sendFl) hset hpa hclp hsize hsize' hmax e
  obtain ⟨r, hok, hserve, hrs, hcode, hdata⟩ := hR _ hs _ first last hread hone (readRange_rangeText _) hle hlast hmost
  have hP := server_peer hS (wireRequest m1 rh none 0 sendFl)
  rw [hserve] at hP
  have hfit : (wireHeaders (headerBlock m1 rh) 0 sendFl.toNat).length ≤ rh.bufferLen := by
    have h1 : (headerBlock m1 rh).length ≤ rh.bufferLen := by
      have h2 := hp.reqLe
      unfold headerBlock; rw [hp.reqBuf]; simp only [List.length_take]; omega
    unfold wireHeaders addsContentLength
    simpa using h1
  obtain ⟨rh', resp', w', evs, e5, hl, _, _, _, _, g⟩ := C58_exchange (w := ⟨s, m1, l⟩) (flags := sendFl) hp hok hreq hflag hrs hfit hP hgot
    (fuel := fuel) (by omega) (by omega) hf3
  exact ⟨rh', resp', w', e5, by rw [g.statusCode]; exact hcode, by rw [g.body]; exact hdata⟩

/-- **C97.** An application downloads a file with range requests; for each attempt it makes a new connection, reliable or not. On the reliable ones the transport
accepts and delivers and the server answers; on the others sending and receiving may fail or stall at any point and the server need not answer what was asked for, but what it
says with status 206 is true. When the calls return (C61) and at least as many bytes are asked for in the reliable attempts as the file has - in whatever
order reliable and unreliable attempts come - the application ends up with exactly the file. -/
theorem C97_recovers {m : Mem} {path host file : Bytes} {fl sendFl : UInt32} {most fuel : Nat} {attempts : List (Attempt σ)}
    (hset : ∀ a ∈ attempts, Setup true httpParser cfg a.transport a.send a.recv h rb none 0 resp b m)
    (hgood : ∀ a ∈ attempts, a.reliable = true → Server serve got rest a.send a.recv resp ∧ a.size ≤ most)
    (hbad : ∀ a ∈ attempts, a.reliable = false → FlakyServer serves got rest a.send a.recv resp)
    (hR : RangeServer serve path file most resp.bufferLen) (hT : TrueRanges serves path file)
    (hstart : ∀ a ∈ attempts, 0 < a.size ∧ got a.start = []) (hret : CallsReturn cfg fuel h resp attempts)
    (hflag : ¬ headersOnly resp.respOptionFlags)
    (hpa : path ≠ []) (hclp : CleanValue path) (hho : host ≠ []) (hclh : CleanValue host)
    (hcu : fl.toNat.testBit 1 = false → CleanValue cfg.userAgent)
    (hroom : (requestBlock (requestLine (ascii "GET") path) (documentedHeaders cfg.userAgent host fl.toNat)).length + 36 ≤ h.bufferLen)
    (hsize : h.bufferLen + h.bufferLen + 2 < 2 ^ cfg.sizeBits) (hfile : file.length ≤ 2147483648) (l : List (Ev PLog)) :
    ∃ acc, resumeOver httpParser cfg fuel path host fl sendFl file.length attempts [] h resp m l = .ok acc ∧ acc <+: file ∧
      (file.length ≤ reliableBytes attempts → acc = file) := by
  have key : ∀ (as : List (Attempt σ)) (acc : Bytes) (h' : ReqHeaders) (resp' : Resp σ) (m' : Mem) (l' : List (Ev PLog)),
      (∀ a ∈ as, Setup true httpParser cfg a.transport a.send a.recv h' rb none 0 resp' b m') →
      (∀ a ∈ as, a.reliable = true → Server serve got rest a.send a.recv resp' ∧ a.size ≤ most) →
      (∀ a ∈ as, a.reliable = false → FlakyServer serves got rest a.send a.recv resp') →
      (∀ a ∈ as, 0 < a.size ∧ got a.start = []) → CallsReturn cfg fuel h' resp' as →
      acc <+: file → h'.bufferLen = h.bufferLen → resp'.bufferLen = resp.bufferLen → ¬ headersOnly resp'.respOptionFlags →
      ∃ acc', resumeOver httpParser cfg fuel path host fl sendFl file.length as acc h' resp' m' l' = .ok acc' ∧ acc' <+: file ∧
        min file.length (acc.length + reliableBytes as) ≤ acc'.length := by
    intro as
    induction as with
    | nil =>
      intro acc h' resp' m' l' _ _ _ _ _ hacc _ _ _
      exact ⟨acc, rfl, hacc, by simp [reliableBytes]; omega⟩
    | cons a as ih =>
      intro acc h' resp' m' l' hset hgood hbad hstart hret hacc hbl hrl hflag
      unfold resumeOver
      by_cases hlt : acc.length < file.length
      case neg => rw [if_neg hlt]; exact ⟨acc, rfl, hacc, by omega⟩
      rw [if_pos hlt]
      obtain ⟨hk, hgot⟩ := hstart a (by simp)
      have hsetA := hset a (by simp)
      generalize hlast : min (acc.length + a.size) file.length - 1 = last
      have hb1 : acc.length ≤ last := by omega
      have hb2 : last < file.length := by omega
      have hsetA' : Setup true httpParser cfg a.transport a.send a.recv h' rb none 0 (cleared resp') b m' := { hsetA with }
      obtain ⟨hops, rh, m1, e⟩ := build_range (m := m') (first := acc.length) (last := last) hsetA.agent ⟨hsetA.reqBuf, hsetA.reqRoom⟩
        (show ascii "GET" ≠ [] by decide) hpa hho hclh hcu (by rw [hbl]; exact hroom) (by rw [hbl]; exact hsize) hb1 (by omega)
      have hz : h'.bufferLen + 38 < 2 ^ cfg.sizeBits := by rw [hbl]; omega
      have hz' : h'.bufferLen + (requestBlock (requestLine (ascii "GET") path) (documentedHeaders cfg.userAgent host fl.toNat)).length < 2 ^ cfg.sizeBits := by
        rw [hbl]; omega
      rw [e]
      dsimp only
      obtain ⟨hp, hbl1, hlen1, hreq, hs, hread, hone⟩ := range_request (sendFl := sendFl) hsetA' hpa hclp hz hz' ⟨by omega, by omega⟩ e
      have hnm : (HTTPClient_Send httpParser cfg fuel (some a.transport) (some rh) none 0 (some (cleared resp')) sendFl ⟨a.start, m1, l'⟩).1 ≠ .more := by
        rcases hret with ⟨f, now, r1, r2, r3, r4, r5⟩ | ⟨r1, r2, r3⟩
        · exact C61_terminates (w := ⟨a.start, m1, l'⟩) hp r1 r2 (r3 a (by simp)).1 (r3 a (by simp)).2 (by rw [hbl1]; exact r4) (by omega) r5
        · exact C61_terminates_noclock (w := ⟨a.start, m1, l'⟩) hp r1 (by omega) (by omega) r3
      have hjoin : ∀ d, d <+: (file.drop acc.length).take (last + 1 - acc.length) → acc ++ d <+: file := by
        rintro d ⟨t, ht⟩
        obtain ⟨u, rfl⟩ := hacc
        rw [List.drop_left] at ht
        obtain ⟨v, hv⟩ := List.take_prefix (last + 1 - acc.length) u
        exact ⟨t ++ v, by rw [List.append_assoc, ← List.append_assoc d, ht, hv]⟩
      -- what the attempt adds
      have hstep : ∀ st rh' resp2 w', HTTPClient_Send httpParser cfg fuel (some a.transport) (some rh) none 0 (some (cleared resp')) sendFl ⟨a.start, m1, l'⟩ =
            (.ok (st, some rh', some resp2), w') →
          (if resp2.statusCode = 206 then acc ++ bodyBytes w'.mem resp2 else acc) <+: file ∧
          acc.length ≤ (if resp2.statusCode = 206 then acc ++ bodyBytes w'.mem resp2 else acc).length ∧
          (a.reliable = true → min file.length (acc.length + a.size) ≤ (if resp2.statusCode = 206 then acc ++ bodyBytes w'.mem resp2 else acc).length) := by
        intro st rh' resp2 w' e5
        cases hrel : a.reliable with
        | true =>
          obtain ⟨hS, hm⟩ := hgood a (by simp) hrel
          have hS' : Server serve got rest a.send a.recv (cleared resp') := { hS with clock := hS.clock, header := hS.header }
          have hfu : h'.bufferLen ≤ fuel ∧ resp'.bufferLen < fuel := by
            rcases hret with ⟨f, now, r1, r2, r3, r4, r5⟩ | ⟨r1, r2, r3⟩
            · have q1 := Nat.le_mul_of_pos_right h'.bufferLen (show 0 < cfg.sendTimeoutMs.toNat + 1 by omega)
              have q2 := Nat.le_mul_of_pos_right resp'.bufferLen (show 0 < cfg.recvTimeoutMs.toNat + 2 by omega)
              omega
            · omega
          obtain ⟨rh3, resp3, w3, e6, h6, h7⟩ := reliable_attempt (sendFl := sendFl) (l := l') (fuel := fuel) hsetA' hpa hclp hz hz' ⟨by omega, by omega⟩ hS'
            (show RangeServer serve path file most (cleared resp').bufferLen by show RangeServer _ _ _ _ resp'.bufferLen; rw [hrl]; exact hR)
            hflag hb1 hb2 (by omega) e hgot hfu.1 hfu.2
          rw [e5] at e6
          cases e6
          rw [if_pos h6, h7]
          refine ⟨hjoin _ (List.prefix_refl _), by simp, fun _ => ?_⟩
          rw [List.length_append, List.length_take, List.length_drop]
          omega
        | false =>
          have hS := hbad a (by simp) hrel
          have hS' : FlakyServer serves got rest a.send a.recv (cleared resp') := { hS with clock := hS.clock, header := hS.header }
          refine ⟨?_, ?_, fun h => nomatch h⟩
          · by_cases h206 : resp2.statusCode = 206
            case neg => rw [if_neg h206]; exact hacc
            rw [if_pos h206]
            have hserves : ∀ x, serves (wireRequest m1 rh none 0 sendFl) x → ∃ r : Response, r.Ok false ∧ x = r.bytes ∧
                (r.code = 206 → r.content.data <+: (file.drop acc.length).take (last + 1 - acc.length)) := fun x hx =>
              hT _ x hs _ acc.length last hx hread hone (readRange_rangeText _) hb1 hb2
            obtain ⟨res, w2, evs, e6, hl5, h5⟩ := C90_exchange (w := ⟨a.start, m1, l'⟩) (flags := sendFl) hp hreq hflag hS' hgot
              (fun x hx => (hserves x hx).imp fun r h => ⟨h.1, h.2.1⟩) fuel
            rw [e5] at e6
            cases e6
            rcases h5 st _ resp2 rfl with ⟨_, _, h7⟩ | ⟨x, hx, _, h7⟩
            · rw [h7] at h206; exact absurd h206 (by show ¬ (0 = 206); decide)
            · obtain ⟨r, ok, hxr, hd⟩ := hserves x hx
              rcases h7 r ok hxr with ⟨_, _, g⟩ | ⟨_, _, g⟩
              · rw [g.body]; exact hjoin _ (hd (by rw [← g.statusCode]; exact h206))
              · refine hjoin _ (g.body.trans (hd ?_))
                rcases g.statusCode with h | h
                · rw [h] at h206; cases h206
                · rw [← h]; exact h206
          · split
            · simp
            · exact Nat.le_refl _
      generalize e5 : HTTPClient_Send httpParser cfg fuel (some a.transport) (some rh) none 0 (some (cleared resp')) sendFl ⟨a.start, m1, l'⟩ = out at hnm hstep ⊢
      obtain ⟨res, w'⟩ := out
      rcases res with ⟨st, orh, oresp⟩ | f | _
      · obtain ⟨rh', resp2, rfl, rfl, hsu2, hb2', hbl2, _, _, _⟩ := send_leaves (w := ⟨a.start, m1, l'⟩) hp e5
        dsimp only
        obtain ⟨s1, s2, s3⟩ := hstep st rh' resp2 w' rfl
        have hlen : ∀ i, (w'.mem i).length = (m' i).length := by
          intro i
          obtain ⟨_, w2, e6, _, _, h3, _⟩ := C60_safe (w := ⟨a.start, m1, l'⟩) (flags := sendFl) hp fuel
          rw [e5] at e6
          cases e6
          rw [h3 i]; exact hlen1 i
        obtain ⟨u1, u2, u3, u4, u5⟩ := hsu2
        have hclk : ∀ f, resp2.getTime = .user f → resp'.getTime = .user f := by
          intro f hf
          rw [u4] at hf
          unfold withClock cleared at hf
          dsimp only at hf
          cases hg : resp'.getTime <;> rw [hg] at hf <;> first | exact hf | cases hf
        obtain ⟨acc', e7, h7, h8⟩ := ih _ rh' resp2 w'.mem w'.log
          (fun a' ha' =>
            have hs' := hset a' (by simp [ha'])
            { hs' with
              reqBuf := hb2'
              reqRoom := by rw [hbl2, hbl1, hlen]; exact hs'.reqRoom
              reqSize := by rw [hbl2, hbl1]; exact hs'.reqSize
              buf := u1.trans hs'.buf
              pos := by rw [u2]; exact hs'.pos
              room := by rw [u2, hlen]; exact hs'.room
              size := by rw [u2]; exact hs'.size
              callback := by rw [u3]; exact hs'.callback
              bodyRoom := (fun bb h => nomatch h) })
          (fun a' ha' hr' => ⟨
            have hs' := (hgood a' (by simp [ha']) hr').1
            { hs' with
              clock := fun f hf => hs'.clock f (hclk f hf)
              header := fun c hc => hs'.header c (by rw [u3] at hc; exact hc) }, (hgood a' (by simp [ha']) hr').2⟩)
          (fun a' ha' hr' =>
            have hs' := hbad a' (by simp [ha']) hr'
            { hs' with
              clock := fun f hf => hs'.clock f (hclk f hf)
              header := fun c hc => hs'.header c (by rw [u3] at hc; exact hc) })
          (fun a' ha' => hstart a' (by simp [ha']))
          (by
            rcases hret with ⟨f, now, r1, r2, r3, r4, r5⟩ | ⟨r1, r2, r3⟩
            · refine .inl ⟨f, now, ?_, r2, fun a' ha' => r3 a' (by simp [ha']), by rw [hbl2, hbl1]; exact r4, by rw [u2]; exact r5⟩
              rw [u4]; unfold withClock cleared; dsimp only; rw [r1]
            · refine .inr ⟨.inr ?_, by rw [hbl2, hbl1]; exact r2, by rw [u2]; exact r3⟩
              rw [u4]; unfold withClock cleared; dsimp only
              rcases r1 with r1 | r1 <;> rw [r1])
          s1 (by rw [hbl2, hbl1, hbl]) (by rw [u2]; exact hrl) (by rw [u5]; exact hflag)
        refine ⟨acc', e7, h7, ?_⟩
        cases hrel : a.reliable with
        | true =>
          have := s3 hrel
          have hrb : reliableBytes (a :: as) = a.size + reliableBytes as := by simp [reliableBytes, List.filter_cons, hrel]
          omega
        | false =>
          have hrb : reliableBytes (a :: as) = reliableBytes as := by simp [reliableBytes, List.filter_cons, hrel]
          omega
      · obtain ⟨_, w2, e6, hnf, _⟩ := C60_safe (w := ⟨a.start, m1, l'⟩) (flags := sendFl) hp fuel
        rw [e5] at e6
        cases e6
        exact absurd rfl (hnf f)
      · exact absurd rfl hnm
  obtain ⟨acc, e, h1, h2⟩ := key attempts [] h resp m l hset hgood hbad hstart hret List.nil_prefix rfl rfl hflag
  refine ⟨acc, e, h1, fun h3 => ?_⟩
  refine List.IsPrefix.eq_of_length h1 ?_
  have := h1.length_le
  simp only [List.length_nil] at h2
  omega

/-! ### Non-vacuity: any file, any sequence of attempts -/

/-- As flakySend, never failing. -/
def steadySend (file : Bytes) : FlakyEnv → Bytes → Int × FlakyEnv := fun s d =>
  (((min 7 d.length : Nat) : Int), s.1 + 1, s.2.1 ++ d.take 7, serveFile file (s.2.1 ++ d.take 7), s.2.2.2)
/-- As flakyRecv, never failing. -/
def steadyRecv : FlakyEnv → Nat → Int × Bytes × FlakyEnv := fun s len =>
  (((s.2.2.1.take (min 5 len)).length : Nat), s.2.2.1.take (min 5 len), s.1 + 1, s.2.1, s.2.2.1.drop (min 5 len), s.2.2.2)

theorem steadyServer (file : Bytes) (q n : Nat) :
    Server (serveFile file) (fun s => s.2.1) (fun s => s.2.2.1) (steadySend file) steadyRecv (flakyResp q n) where
  accepts := by
    intro s d hd
    have : 0 < d.length := List.length_pos_iff.mpr hd
    unfold steadySend
    dsimp only
    omega
  takes := by
    intro s d
    unfold steadySend
    dsimp only
    congr 1
    rcases Nat.le_total 7 d.length with h | h
    · rw [Nat.min_eq_left h]; rfl
    · rw [Nat.min_eq_right h, List.take_of_length_le h, List.take_of_length_le (by omega)]
  answers := fun _ _ => rfl
  delivers := fun s len => ⟨rfl, List.take_append_drop _ _⟩
  progress := by
    intro s len h1 h2 h3
    have h4 : 0 < s.2.2.1.length := List.length_pos_iff.mpr h2
    have h5 := congrArg List.length h3
    unfold steadyRecv at h5
    simp only [List.length_take, List.length_nil] at h5
    omega
  keeps := fun _ _ => rfl
  clock := by intro f hf s; cases hf; exact ⟨rfl, rfl⟩
  header := by intro c hc s a f b v code; cases hc; exact ⟨rfl, rfl⟩

/-- An attempt that asks for k bytes: on a steady connection, or on one on which the given numbers of send and receive calls do not fail. -/
def exAttempt (file : Bytes) (t k : Nat) : Option (Nat × Nat) → Attempt FlakyEnv
  | none => ⟨k, steadySend file, steadyRecv, (t, [], [], 0, 0), true⟩
  | some (i, j) => ⟨k, flakySend file, flakyRecv, (t, [], [], i, j), false⟩

/-- Any file of at most 2^31 bytes; any sequence of attempts at any times, each of at least one and at most 120 bytes, each either on a steady connection or on one that breaks after any
numbers of send and receive calls: when the steady ones add up to the size of the file, the application has it. -/
theorem C97_any_file (file : Bytes) (hfile : file.length ≤ 2147483648) (as : List (Nat × Nat × Option (Nat × Nat))) (hk : ∀ a ∈ as, 0 < a.2.1 ∧ a.2.1 ≤ 120)
    (henough : file.length ≤ ((as.filter (·.2.2.isNone)).map (·.2.1)).sum) (q : Nat) (hq : q = 0 ∨ q = 1) {fuel : Nat} (hfuel : 10000 ≤ fuel) :
    resumeOver httpParser exCfg fuel (ascii "/firmware.bin") (ascii "example.com") 1 0 file.length (as.map fun a => exAttempt file a.1 a.2.1 a.2.2) []
      eHdr (flakyResp q 200) xMem [] = .ok file := by
  have hx := peerCallPre [] [] q hq
  have hB : ∀ x : UInt32, x.toNat ≤ 1000 → 4294966296 ≤ 4294967296 - x.toNat := fun x h => by omega
  obtain ⟨acc, e, _, h⟩ := C97_recovers (σ := FlakyEnv) (cfg := exCfg) (resp := flakyResp q 200) (h := eHdr) (b := q) (rb := 0)
    (serves := fun q x => x = serveFile file q) (serve := serveFile file) (got := fun s => s.2.1) (rest := fun s => s.2.2.1) (m := xMem)
    (path := ascii "/firmware.bin") (host := ascii "example.com") (file := file) (fl := 1) (sendFl := 0) (most := 120) (fuel := fuel)
    (attempts := as.map fun a => exAttempt file a.1 a.2.1 a.2.2)
    (by
      intro a ha
      obtain ⟨⟨t, k, o⟩, _, rfl⟩ := List.mem_map.mp ha
      cases o with
      | none => exact
        { parser := hx.parser, hasSend := rfl, hasRecv := rfl
          sendOk := (fun s d => by show ((min 7 d.length : Nat) : Int) ≤ _; omega)
          recvOk := (fun s len => by
            unfold exAttempt steadyRecv
            exact ⟨by dsimp only; rw [List.length_take]; omega, by dsimp only; rw [List.length_take]; omega⟩)
          agent := by decide, reqBuf := rfl, reqRoom := by decide +kernel, reqSize := by decide
          buf := rfl, pos := (by show 0 < 200; decide), room := hx.room, size := (by show 200 < _; decide)
          callback := (fun h => nomatch h), bodyNone := fun _ => rfl
          bodyRoom := (fun bb h => nomatch h), bodyMax := by decide }
      | some ij => exact
        { parser := hx.parser, hasSend := rfl, hasRecv := rfl
          sendOk := (fun s d => by unfold exAttempt flakySend; dsimp only; split <;> dsimp only <;> omega)
          recvOk := (fun s len => by
            unfold exAttempt flakyRecv
            dsimp only
            split
            · exact ⟨by dsimp only; omega, by dsimp only; rw [List.length_take]; omega⟩
            · exact ⟨by dsimp only; omega, by dsimp only; rw [List.length_take]; omega⟩)
          agent := by decide, reqBuf := rfl, reqRoom := by decide +kernel, reqSize := by decide
          buf := rfl, pos := (by show 0 < 200; decide), room := hx.room, size := (by show 200 < _; decide)
          callback := (fun h => nomatch h), bodyNone := fun _ => rfl
          bodyRoom := (fun bb h => nomatch h), bodyMax := by decide })
    (by
      intro a ha hr
      obtain ⟨⟨t, k, o⟩, hm, rfl⟩ := List.mem_map.mp ha
      cases o with
      | none => exact ⟨steadyServer file q 200, (hk _ hm).2⟩
      | some ij => cases hr)
    (by
      intro a ha hr
      obtain ⟨⟨t, k, o⟩, hm, rfl⟩ := List.mem_map.mp ha
      cases o with
      | none => cases hr
      | some ij => exact flakyServer file q 200)
    (serveFile_ok _ _) (serveFile_true (ascii "/firmware.bin") file hfile)
    (by
      intro a ha
      obtain ⟨⟨t, k, o⟩, hm, rfl⟩ := List.mem_map.mp ha
      cases o with
      | none => exact ⟨(hk _ hm).1, rfl⟩
      | some ij => exact ⟨(hk _ hm).1, rfl⟩)
    (by
      refine .inl ⟨_, fun s => s.1, rfl, ⟨fun _ => rfl, fun _ => Nat.le_refl _⟩, ?_, ?_, ?_⟩
      · intro a ha
        obtain ⟨⟨t, k, o⟩, hm, rfl⟩ := List.mem_map.mp ha
        have h1 := hB exCfg.sendTimeoutMs (by decide)
        have h2 := hB exCfg.recvTimeoutMs (by decide)
        cases o with
        | none =>
          refine ⟨fun s d _ => ?_, fun s len _ => ?_⟩
          · show s.1 < s.1 + 1 ∧ s.1 + 1 < s.1 + _; omega
          · show s.1 < s.1 + 1 ∧ s.1 + 1 < s.1 + _; omega
        | some ij =>
          refine ⟨fun s d h0 => ?_, fun s len h0 => ?_⟩
          · show s.1 < (flakySend file s d).2.1 ∧ (flakySend file s d).2.1 < _
            unfold flakySend
            split <;> dsimp only <;> omega
          · have h0 : (flakyRecv s len).1 = 0 := h0
            show s.1 < (flakyRecv s len).2.2.1 ∧ (flakyRecv s len).2.2.1 < _
            unfold flakyRecv at h0 ⊢
            split
            · rename_i hz; rw [if_pos hz] at h0; cases h0
            · dsimp only; omega
      · exact Nat.le_trans (by decide) hfuel
      · exact Nat.le_trans (by show 200 * _ + _ + _ ≤ 10000; decide) hfuel)
    (show ¬ ((0 : UInt32).toNat % 2 = 1) by decide) (by decide) (by decide) (by decide) (by decide) (fun _ => by decide) (by decide +kernel) (by decide) hfile []
  rw [e, h ?_]
  refine Nat.le_trans henough (Nat.le_of_eq ?_)
  unfold reliableBytes
  clear h e henough hk
  induction as with
  | nil => rfl
  | cons x as ih =>
    obtain ⟨t, k, o⟩ := x
    cases o with
    | none => simp only [List.map_cons, List.filter_cons, exAttempt, Option.isNone_none, if_true, List.sum_cons]; rw [ih]; rfl
    | some ij => simpa [List.filter_cons, exAttempt] using ih

/-- An instance: a file of 20 bytes, in five attempts, of which the first, the third and the fourth are on connections that break. -/
example : resumeOver httpParser exCfg 10000 (ascii "/firmware.bin") (ascii "example.com") 1 0 20
    ([(0, 9, some (100, 15)), (1000, 12, none), (2000, 5, some (3, 100)), (3000, 5, some (100, 2)), (4000, 8, none)].map fun a =>
      exAttempt (ascii "0123456789abcdefghij") a.1 a.2.1 a.2.2) [] eHdr (flakyResp 1 200) xMem [] = .ok (ascii "0123456789abcdefghij") :=
  C97_any_file (ascii "0123456789abcdefghij") (by decide) _ (by decide) (by decide) 1 (.inr rfl) (Nat.le_refl _)

end CoreHttp.Props

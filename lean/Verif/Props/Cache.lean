import Verif.Props.Versions
import Verif.Spec.Cache

/-! # C114: keeping a copy and asking whether it is current -/

namespace CoreHttp.Props
open CoreHttp Spec Ref Machine
variable {σ : Type} {cfg : Cfg} {T : Transport σ} {send : σ → Bytes → Int × σ} {recv : σ → Nat → Int × Bytes × σ}
  {resp : Resp σ} {rh h : ReqHeaders} {b rb : Nat} {got rest : σ → Bytes}

/-- The conditional header of a request. -/
def condition (cache : Option (Bytes × Bytes)) : List (Bytes × Bytes) :=
  match cache with
  | some (t, _) => [(ascii "If-None-Match", t)]
  | none => []

theorem one_condition (ua ho : Bytes) (fl : Nat) (cache : Option (Bytes × Bytes)) :
    (documentedHeaders ua ho fl ++ condition cache).filter (·.1 == ascii "If-None-Match") = condition cache := by
  have e1 : (ascii "User-Agent" == ascii "If-None-Match") = false := by decide
  have e2 : (ascii "Host" == ascii "If-None-Match") = false := by decide
  have e3 : (ascii "Connection" == ascii "If-None-Match") = false := by decide
  have e4 : (ascii "If-None-Match" == ascii "If-None-Match") = true := by decide
  unfold documentedHeaders condition
  cases fl.testBit 1 <;> cases fl.testBit 0 <;> cases cache <;> simp [List.filter_cons, e1, e2, e3, e4]

/-- The requests of the loop: what goes over the wire, and what the server reads. -/
theorem poll_request {m m1 : Mem} {path host : Bytes} {fl sendFl : UInt32} {cache : Option (Bytes × Bytes)} {sts : List Status}
    (hset : Setup true httpParser cfg T send recv h rb none 0 resp b m) (hpa : path ≠ []) (hclp : CleanValue path)
    (hops : ∀ op ∈ pollOps path host fl cache, OpOk cfg h.bufferLen op)
    (hall : sts.all (· == .success) = true) (e : runBuildOps cfg m h (pollOps path host fl cache) = .ok (sts, rh, m1)) :
    CallPre true httpParser cfg T send recv rh rb none 0 resp b m1 ∧ rh.bufferLen = h.bufferLen ∧ (∀ i, (m1 i).length = (m i).length) ∧
      ReqIs false (headerBlock m1 rh) ∧
      ∃ hs, readRequest (wireRequest m1 rh none 0 sendFl) = some (ascii "GET " ++ path ++ ascii " HTTP/1.1", hs, []) ∧
        hs.filter (·.1 == ascii "If-None-Match") = condition cache := by
  have hep : effectivePath (some path) = path := by
    unfold effectivePath
    cases path with
    | nil => exact absurd rfl hpa
    | cons x t => rfl
  obtain ⟨_, _, _, e7, hlen7, _, _, _, hfr, _⟩ := runBuildOps_spec hset.agent _ m h rb none hset.reqBuf hset.reqRoom hops
  rw [e] at e7
  cases e7
  have hone : ∀ st ∈ sts, st = .success := fun st hst => by simpa using List.all_eq_true.mp hall st hst
  have habs : Spec.absRun cfg.userAgent none ((pollOps path host fl cache).zip sts) =
      some (requestLine (ascii "GET") path, documentedHeaders cfg.userAgent host fl.toNat ++ condition cache) := by
    unfold pollOps at hlen7 ⊢
    unfold condition
    cases cache with
    | none =>
      obtain ⟨s1, rfl⟩ : ∃ s1, sts = [s1] := List.length_eq_one_iff.mp (by simpa using hlen7)
      obtain rfl := hone s1 (by simp)
      simp only [List.zip_cons_cons, List.zip_nil_right, Spec.absRun, Spec.absStep, hep, List.append_nil]
    | some c =>
      obtain ⟨s1, s2, rfl⟩ : ∃ s1 s2, sts = [s1, s2] := by
        match sts, hlen7 with
        | [s1, s2], _ => exact ⟨s1, s2, rfl⟩
      obtain rfl := hone s1 (by simp)
      obtain rfl := hone s2 (by simp)
      simp only [List.zip_cons_cons, List.zip_nil_right, Spec.absRun, Spec.absStep, Option.map_some, hep]
  obtain ⟨hp, hbl1, hB, hne, hcl, hbd⟩ := built hset hops e habs
  have hal : autoLength 0 sendFl.toNat = [] := by unfold autoLength addsContentLength; simp
  have hw := wireHeaders_block (line := requestLine (ascii "GET") path) hne 0 sendFl.toNat
  have hread := wire_reads (me := ascii "GET") (path := path) (show CleanValue (ascii "GET") by decide) hclp hcl [] 0 sendFl.toNat
  have e4 : ascii "GET" ++ ascii " " = ascii "GET " := by decide
  rw [e4, hal, List.append_nil, List.append_nil] at hread
  rw [hal, List.append_nil] at hw
  refine ⟨hp, hbl1, ?_, ?_, _, ?_, one_condition cfg.userAgent host fl.toNat cache⟩
  · intro i
    by_cases hi : i = rb
    · subst hi; exact hfr.2.1
    · rw [hfr.1 i hi]
  · show ¬ ascii "HEAD" <+: headerBlock m1 rh
    rw [hB]
    intro hpre
    unfold requestBlock requestLine at hpre
    have := List.prefix_iff_eq_take.mp hpre
    have h2 := congrArg (fun x : Bytes => x[0]?) this
    revert h2
    simp [ascii]
  · unfold wireRequest
    rw [hB, hw]
    show readRequest (_ ++ []) = _
    rw [List.append_nil]
    exact hread

/-- **C114.** An application keeps a copy of a resource with its entity tag, and asks the server again and again, on any connections, with If-None-Match, whether it is
current: with a status code 200 it replaces its copy, with 304 it goes on using it. The resource changes on the server at any time between the polls (also back
to an earlier version). Whatever fails, no call faults, and whenever the application takes something for current, it is what the server has then. (`.more`: a call
did not return within `fuel` steps.) -/
theorem C114_current {m : Mem} {path host : Bytes} {fl sendFl : UInt32} {polls : List (Poll σ)}
    (hset : ∀ p ∈ polls, Setup true httpParser cfg p.transport p.send p.recv h rb none 0 resp b m)
    (hS : ∀ p ∈ polls, FlakyServer p.serves got rest p.send p.recv resp ∧ p.Truthful path ∧ got p.start = [])
    (htags : ∀ p ∈ polls, ∀ p' ∈ polls, p.tag = p'.tag → p.file = p'.file) (hflag : ¬ headersOnly resp.respOptionFlags) (hpa : path ≠ []) (hclp : CleanValue path)
    (hsize : ∀ p ∈ polls, h.bufferLen + p.tag.length + 19 < 2 ^ cfg.sizeBits)
    (hsize' : h.bufferLen + (requestBlock (requestLine (ascii "GET") path) (documentedHeaders cfg.userAgent host fl.toNat)).length < 2 ^ cfg.sizeBits)
    (l : List (Ev PLog)) (fuel : Nat) :
    revalidate httpParser cfg fuel path host fl sendFl polls none [] h resp m l = .more ∨
    ∃ outs, revalidate httpParser cfg fuel path host fl sendFl polls none [] h resp m l = .ok outs ∧
      ∀ (i : Nat) (f : Bytes), outs[i]? = some (some f) → ∃ p : Poll σ, polls[i]? = some p ∧ f = p.file := by
  have key : ∀ (as before : List (Poll σ)) (cache : Option (Bytes × Bytes)) (out : List (Option Bytes)) (h' : ReqHeaders) (resp' : Resp σ) (m' : Mem) (l' : List (Ev PLog)),
      polls = before ++ as → out.length = before.length → (∀ (i : Nat) (f : Bytes), out[i]? = some (some f) → ∃ p : Poll σ, polls[i]? = some p ∧ f = p.file) →
      (∀ t c, cache = some (t, c) → ∃ p ∈ polls, p.tag = t ∧ p.file = c) → h'.bufferLen = h.bufferLen →
      (∀ p ∈ as, Setup true httpParser cfg p.transport p.send p.recv h' rb none 0 resp' b m') →
      (∀ p ∈ as, FlakyServer p.serves got rest p.send p.recv resp') → ¬ headersOnly resp'.respOptionFlags →
      revalidate httpParser cfg fuel path host fl sendFl as cache out h' resp' m' l' = .more ∨
      ∃ outs, revalidate httpParser cfg fuel path host fl sendFl as cache out h' resp' m' l' = .ok outs ∧
        ∀ (i : Nat) (f : Bytes), outs[i]? = some (some f) → ∃ p : Poll σ, polls[i]? = some p ∧ f = p.file := by
    intro as
    induction as with
    | nil => intro before cache out h' resp' m' l' _ _ hout _ _ _ _ _; exact .inr ⟨out, rfl, hout⟩
    | cons p as ih =>
      intro before cache out h' resp' m' l' hpolls hlen0 hout hcache hbl hset' hS' hflag
      have hmem : p ∈ polls := by rw [hpolls]; simp
      have hat : polls[out.length]? = some p := by rw [hpolls, hlen0]; simp
      obtain ⟨_, htrue, hgs⟩ := hS p hmem
      have hsetA := hset' p (by simp)
      have hSA := hS' p (by simp)
      unfold revalidate
      have hep : effectivePath (some path) = path := by
        unfold effectivePath
        cases path with
        | nil => exact absurd rfl hpa
        | cons x t => rfl
      have hops : ∀ op ∈ pollOps path host fl cache, OpOk cfg h'.bufferLen op := by
        intro op hop
        unfold pollOps at hop
        rcases List.mem_cons.mp hop with rfl | hop
        · refine ⟨?_, trivial⟩
          show h'.bufferLen + (requestBlock (requestLine (ascii "GET") (effectivePath (some path)))
            (documentedHeaders cfg.userAgent host fl.toNat)).length < _
          rw [hep, hbl]; exact hsize'
        · cases cache with
          | none => simp at hop
          | some c =>
            obtain ⟨t, c⟩ := c
            obtain ⟨p', hp', ht, _⟩ := hcache t c rfl
            simp only [List.mem_cons, List.not_mem_nil, or_false] at hop
            subst hop
            refine ⟨?_, trivial⟩
            show h'.bufferLen + ((ascii "If-None-Match").length + t.length + 6) < _
            have h1 := hsize p' hp'
            rw [ht] at h1
            have h2 : (ascii "If-None-Match").length = 13 := by decide
            omega
      obtain ⟨sts, rh, m1, e, hsl, _⟩ := runBuildOps_spec hsetA.agent _ m' h' rb none hsetA.reqBuf hsetA.reqRoom hops
      rw [e]
      dsimp only
      by_cases hall : sts.all (· == .success) = true
      case neg => rw [if_neg hall]; exact .inr ⟨out, rfl, hout⟩
      rw [if_pos hall]
      obtain ⟨hp, hbl1, hlen1, hreq, hs, hread, hone⟩ := poll_request (sendFl := sendFl) hsetA hpa hclp hops hall e
      have hserves := fun x (hx : p.serves (wireRequest m1 rh none 0 sendFl) x) => htrue.2 _ x hs hx hread
      obtain ⟨res, w', evs, e5, hl5, h5⟩ := C90_exchange (w := ⟨p.start, m1, l'⟩) (flags := sendFl) hp hreq hflag hSA hgs
        (fun x hx => (hserves x hx).imp fun r h => ⟨h.1, h.2.1⟩) fuel
      rw [e5]
      rcases res with ⟨st, orh, oresp⟩ | f | _
      · obtain ⟨rh', resp2, rfl, rfl, hsu2, hb2', hbl2, _, _, _⟩ := send_leaves (w := ⟨p.start, m1, l'⟩) hp e5
        dsimp only
        have hlen : ∀ i, (w'.mem i).length = (m' i).length := by
          intro i
          obtain ⟨_, w2, e6, _, _, h3, _⟩ := C60_safe (w := ⟨p.start, m1, l'⟩) (flags := sendFl) hp fuel
          rw [e5] at e6
          cases e6
          rw [h3 i]; exact hlen1 i
        obtain ⟨u1, u2, u3, u4, u5⟩ := hsu2
        have hset2 : ∀ m2 : Mem, m2 = w'.mem → ∀ p ∈ as, Setup true httpParser cfg p.transport p.send p.recv rh' rb none 0 resp2 b m2 := by
          rintro _ rfl p' hp'
          have hset := hset' p' (by simp [hp'])
          exact
          { hset with
            reqBuf := hb2'
            reqRoom := by rw [hbl2, hbl1, hlen]; exact hset.reqRoom
            reqSize := by rw [hbl2, hbl1]; exact hset.reqSize
            buf := u1.trans hset.buf
            pos := by rw [u2]; exact hset.pos
            room := by rw [u2, hlen]; exact hset.room
            size := by rw [u2]; exact hset.size
            callback := by rw [u3]; exact hset.callback
            bodyRoom := (fun bb h => nomatch h) }
        have hS2 : ∀ p ∈ as, FlakyServer p.serves got rest p.send p.recv resp2 := fun p' hp' =>
          { hS' p' (by simp [hp']) with
            clock := fun f hf => (hS' p' (by simp [hp'])).clock f (by
              rw [u4] at hf
              unfold withClock at hf
              dsimp only at hf
              cases hg : resp'.getTime <;> rw [hg] at hf <;> first | exact hf | cases hf)
            header := fun c hc => (hS' p' (by simp [hp'])).header c (by rw [u3] at hc; exact hc) }
        have hnext := fun (cache' : Option (Bytes × Bytes)) (o : Option Bytes) (m2 : Mem) (l2 : List (Ev PLog)) (hm2 : m2 = w'.mem)
            (ho : ∀ f, o = some f → f = p.file) hc =>
          ih (before ++ [p]) cache' (out ++ [o]) rh' resp2 m2 l2 (by rw [hpolls]; simp) (by simp [hlen0])
            (by
              intro i f hi
              rcases Nat.lt_trichotomy i out.length with hlt | rfl | hgt
              · rw [List.getElem?_append_left hlt] at hi; exact hout i f hi
              · rw [List.getElem?_append_right (Nat.le_refl _)] at hi
                simp only [Nat.sub_self, List.getElem?_cons_zero, Option.some.injEq] at hi
                exact ⟨p, hat, ho f hi⟩
              · rw [List.getElem?_eq_none (by simp; omega)] at hi; cases hi)
            hc (by rw [hbl2, hbl1, hbl]) (hset2 m2 hm2) hS2 (by rw [u5]; exact hflag)
        -- what a successful call reports
        have hgot : st = .success → ∃ r : Response, r.Ok false ∧ received evs = r.bytes ∧ Got cfg r resp'.pHeaderParsingCallback.isSome evs w'.mem resp2 ∧
            (r.code = 200 → r.content.data = p.file ∧ FirstValue (ascii "ETag") r p.tag) ∧
            (r.code = 304 → condition cache = [(ascii "If-None-Match", p.tag)]) := by
          rintro rfl
          rcases h5 _ _ resp2 rfl with ⟨_, h6, _⟩ | ⟨x, hx, _, h7⟩
          · exact absurd rfl h6
          obtain ⟨r, ok, hxr, hd, hd'⟩ := hserves x hx
          rcases h7 r ok hxr with ⟨_, hrec, g⟩ | ⟨h6, _⟩
          · exact ⟨r, ok, hrec, g, hd, fun h => by rw [← hone]; exact hd' h⟩
          · exact absurd rfl h6
        by_cases hok : st = .success ∧ resp2.statusCode = 200
        · rw [if_pos hok]
          obtain ⟨rfl, h200⟩ := hok
          obtain ⟨r, ok, hrec, g, hd, _⟩ := hgot rfl
          obtain ⟨hdata, hetag⟩ := hd (by rw [← g.statusCode]; exact h200)
          have hbuf : resp2.pBuffer = some b := u1.trans hsetA.buf
          have hroom2 : resp2.bufferLen ≤ (w'.mem b).length := by rw [u2, hlen]; exact hsetA.room
          have hhl : r.head.length ≤ resp2.bufferLen := by
            have h1 : r.bytes.length = r.head.length + r.content.bytes.length := by simp [Response.bytes]
            have h2 : r.bytes.length ≤ resp'.bufferLen := by rw [← hrec]; exact send_received_le (w := ⟨p.start, m1, l'⟩) hp e5 hl5
            have u2' : resp2.bufferLen = resp'.bufferLen := u2
            omega
          obtain ⟨loc, len, w2, e6, hm2, hv1⟩ := lookup_value (w := w') hbuf hroom2 ok hhl (g.head b hbuf) (show ascii "ETag" ≠ [] by decide) hetag
          rw [e6]
          dsimp only
          rw [hm2, hv1, g.body, hdata]
          exact hnext _ _ _ _ rfl (fun f hf => (Option.some.inj hf).symm) (fun t c hc => ⟨p, hmem, by cases hc; exact ⟨rfl, rfl⟩⟩)
        · rw [if_neg hok]
          refine hnext _ _ _ _ rfl ?_ hcache
          intro f hf
          by_cases h304 : st = .success ∧ resp2.statusCode = 304
          case neg => rw [if_neg h304] at hf; cases hf
          rw [if_pos h304] at hf
          obtain ⟨rfl, h304⟩ := h304
          obtain ⟨r, ok, hrec, g, _, hd⟩ := hgot rfl
          have hc := hd (by rw [← g.statusCode]; exact h304)
          cases cache with
          | none => cases hf
          | some c =>
            obtain ⟨t, c⟩ := c
            obtain ⟨p', hp', rfl, rfl⟩ := hcache t c rfl
            simp only [Option.map_some, Option.some.injEq] at hf
            subst hf
            simp only [condition, List.cons.injEq, Prod.mk.injEq, true_and, and_true] at hc
            exact htags _ hp' _ hmem hc
      · obtain ⟨_, w2, e6, hnf, _⟩ := C60_safe (w := ⟨p.start, m1, l'⟩) (flags := sendFl) hp fuel
        rw [e5] at e6
        cases e6
        exact absurd rfl (hnf f)
      · exact .inl rfl
  exact key polls [] none [] h resp m l rfl rfl (fun i f hi => by simp at hi) (fun t c hc => nomatch hc) rfl hset (fun p hp => (hS p hp).1) hflag

/-! ### Non-vacuity: any resource, changing at any time, over connections that fail at any time -/

/-- The answer with the version `v`. -/
def fullAnswer (d : Bytes) (v : Nat) : Response := { verAnswer d 0 d.length v with code := 200 }

/-- The answer that the version `v` is current. -/
def notModified (v : Nat) : Response := ⟨.v11, 304, ascii "Not Modified", [⟨ascii "etag", ascii " ", tagOf v⟩], .none⟩

/-- A server that has the version `v`. -/
def servePoll (file : Nat → Bytes) (v : Nat) (q : Bytes) : Bytes :=
  match readRequest q with
  | some (_, hs, []) =>
    if hs.filter (·.1 == ascii "If-None-Match") = [(ascii "If-None-Match", tagOf v)] then (notModified v).bytes else (fullAnswer (file v) v).bytes
  | _ => []

theorem fullAnswer_ok (d : Bytes) (v : Nat) (hd : d.length < 18446744073709551615) : (fullAnswer d v).Ok false where
  code := by show 100 ≤ 200 ∧ 200 ≤ 999; decide
  reason := (verAnswer_ok d 0 d.length v hd).reason
  fields := (verAnswer_ok d 0 d.length v hd).fields
  content := (verAnswer_ok d 0 d.length v hd).content

theorem notModified_ok (v : Nat) : (notModified v).Ok false where
  code := by show 100 ≤ 304 ∧ 304 ≤ 999; decide
  reason := show ∀ c ∈ ascii "Not Modified", c ≠ 13 ∧ c ≠ 10 by decide +kernel
  fields := fun f hf => by
    obtain rfl : f = ⟨ascii "etag", ascii " ", tagOf v⟩ := by simpa [notModified] using hf
    exact (verAnswer_ok [] 0 0 v (by decide)).fields _ (by simp [verAnswer])
  content := by
    have h6 : (notModified v).lengths = [] := by
      show List.filter _ [_] = _
      rw [List.filter_cons_of_neg (by rw [decide_eq_true_eq]; show ¬ ((ascii "etag").map lowerAscii = ascii "content-length"); decide +kernel)]
      rfl
    refine ⟨.inr ⟨.inr (.inr rfl), ?_, ?_⟩, .inl h6⟩
    · unfold Response.statedLength
      rw [h6]
    · rintro ⟨f, hf, h1, _⟩
      obtain rfl : f = ⟨ascii "etag", ascii " ", tagOf v⟩ := by simpa [notModified] using hf
      revert h1
      show ¬ (ascii "etag").map lowerAscii = ascii "transfer-encoding"
      decide +kernel

/-- Accepts at most 7 bytes; fails when the number of send calls is used up. -/
def pollSend (file : Nat → Bytes) (v : Nat) : FlakyEnv → Bytes → Int × FlakyEnv := fun s d =>
  if s.2.2.2.1 = 0 then (-1, s.1 + 1, s.2.1, servePoll file v s.2.1, 0, s.2.2.2.2)
  else (((min 7 d.length : Nat) : Int), s.1 + 1, s.2.1 ++ d.take 7, servePoll file v (s.2.1 ++ d.take 7), s.2.2.2.1 - 1, s.2.2.2.2)

/-- A poll at the time `t`, when the server has the version `v`, on a connection that breaks after so many calls of send and of receive. -/
def exPoll (file : Nat → Bytes) (v t sends recvs : Nat) : Poll FlakyEnv :=
  ⟨pollSend file v, flakyRecv, (t, [], [], sends, recvs), tagOf v, file v, fun q x => x = servePoll file v q⟩

theorem pollServer (file : Nat → Bytes) (v q n : Nat) :
    FlakyServer (fun q x => x = servePoll file v q) (fun s => s.2.1) (fun s => s.2.2.1) (pollSend file v) flakyRecv (flakyResp q n) where
  takes := by
    intro s d
    unfold pollSend
    split
    · simp
    · dsimp only
      congr 1
      rcases Nat.le_total 7 d.length with h | h
      · rw [Nat.min_eq_left h]; rfl
      · rw [Nat.min_eq_right h, List.take_of_length_le h, List.take_of_length_le (by omega)]
  answers := by
    intro s d
    unfold pollSend
    split <;> rfl
  delivers := (flakyServer [] q n).delivers
  clock := (flakyServer [] q n).clock
  header := (flakyServer [] q n).header

theorem exPoll_truthful (file : Nat → Bytes) (hf : ∀ v, (file v).length ≤ 2147483648) (v t sends recvs : Nat) (path : Bytes) :
    (exPoll file v t sends recvs).Truthful path := by
  refine ⟨by simp [exPoll, tagOf], ?_⟩
  rintro q x hs hx hq
  obtain rfl : x = servePoll file v q := hx
  by_cases hc : hs.filter (·.1 == ascii "If-None-Match") = [(ascii "If-None-Match", tagOf v)]
  · refine ⟨notModified v, notModified_ok v, ?_, ?_, fun _ => hc⟩
    · unfold servePoll
      rw [hq]; dsimp only
      rw [if_pos hc]
    · intro h; exact absurd h (by show ¬ (304 = 200); decide)
  · refine ⟨fullAnswer (file v) v, fullAnswer_ok _ v (by have := hf v; omega), ?_, fun _ => ⟨rfl, [], _, _, rfl, ?_, (fun g hg => nomatch hg), rfl⟩, ?_⟩
    · unfold servePoll
      rw [hq]; dsimp only
      rw [if_neg hc]
    · exact (C56_compare (s := ascii "ETag") (t := ascii "etag") (n := 4) (by decide) (by decide)).2.1 (by decide +kernel)
    · intro h; exact absurd h (by show ¬ (200 = 304); decide)

theorem tagOf_length (v : Nat) (hv : v < 10 ^ 10) : (tagOf v).length ≤ 12 := by
  have := decimal_length_le (k := 9) hv
  simp only [tagOf, List.length_append, List.length_cons, List.length_nil]
  omega

/-- Any versions of a resource, any number of polls `(v, t, sends, recvs)`. -/
theorem C114_any_polls (file : Nat → Bytes) (hfile : ∀ v, (file v).length ≤ 2147483648) (ps : List (Nat × Nat × Nat × Nat)) (hv : ∀ p ∈ ps, p.1 < 10 ^ 10)
    (q n : Nat) (hq : q = 0 ∨ q = 1) (hn : 0 < n ∧ n ≤ 200) (fuel : Nat) :
    revalidate httpParser exCfg fuel (ascii "/status") (ascii "example.com") 1 0 (ps.map fun p => exPoll file p.1 p.2.1 p.2.2.1 p.2.2.2) none []
      eHdr (flakyResp q n) xMem [] = .more ∨
    ∃ outs, revalidate httpParser exCfg fuel (ascii "/status") (ascii "example.com") 1 0 (ps.map fun p => exPoll file p.1 p.2.1 p.2.2.1 p.2.2.2) none []
      eHdr (flakyResp q n) xMem [] = .ok outs ∧
      ∀ (i : Nat) (f : Bytes), outs[i]? = some (some f) → ∃ p : Nat × Nat × Nat × Nat, ps[i]? = some p ∧ f = file p.1 := by
  have hx := peerCallPre [] [] q hq
  have hall : ∀ p ∈ ps.map fun p => exPoll file p.1 p.2.1 p.2.2.1 p.2.2.2, ∃ v t a c, v < 10 ^ 10 ∧ p = exPoll file v t a c := by
    intro p hp
    obtain ⟨x, hx, rfl⟩ := List.mem_map.mp hp
    exact ⟨_, _, _, _, hv x hx, rfl⟩
  rcases C114_current (host := ascii "example.com") (fl := 1) (sendFl := 0) (path := ascii "/status") (h := eHdr) (rb := 0) (resp := flakyResp q n) (b := q) (m := xMem)
    (cfg := exCfg) (got := fun s => s.2.1) (rest := fun s => s.2.2.1) (polls := ps.map fun p => exPoll file p.1 p.2.1 p.2.2.1 p.2.2.2)
    (fun p hp => by
      obtain ⟨v, t, a, c, _, rfl⟩ := hall p hp
      exact
      { parser := hx.parser, hasSend := rfl, hasRecv := rfl
        sendOk := (fun s d => by show (pollSend file v s d).1 ≤ _; unfold pollSend; split <;> dsimp only <;> omega)
        recvOk := (fun s len => by
          show (flakyRecv s len).1 ≤ _ ∧ _
          unfold exPoll flakyRecv
          dsimp only
          split
          · exact ⟨by dsimp only; omega, by dsimp only; rw [List.length_take]; omega⟩
          · exact ⟨by dsimp only; omega, by dsimp only; rw [List.length_take]; omega⟩)
        agent := by decide, reqBuf := rfl, reqRoom := by decide +kernel, reqSize := by decide
        buf := rfl, pos := hn.1, room := (Nat.le_trans hn.2 hx.room), size := (Nat.lt_of_le_of_lt hn.2 (by decide))
        callback := (fun h => nomatch h), bodyNone := fun _ => rfl
        bodyRoom := (fun bb h => nomatch h), bodyMax := by decide })
    (fun p hp => by
      obtain ⟨v, t, a, c, _, rfl⟩ := hall p hp
      exact ⟨pollServer file v q n, exPoll_truthful file hfile v t a c _, rfl⟩)
    (fun p hp p' hp' ht => by
      obtain ⟨v, t, a, c, _, rfl⟩ := hall p hp
      obtain ⟨v', t', a', c', _, rfl⟩ := hall p' hp'
      obtain rfl : v = v' := tagOf_inj ht
      rfl)
    (show ¬ ((0 : UInt32).toNat % 2 = 1) by decide) (by decide) (by decide)
    (fun p hp => by
      obtain ⟨v, t, a, c, hv, rfl⟩ := hall p hp
      have h1 : (exPoll file v t a c).tag.length ≤ 12 := tagOf_length v hv
      have h2 : eHdr.bufferLen + 12 + 19 < 2 ^ exCfg.sizeBits := by decide
      omega)
    (by decide +kernel) [] fuel with h | ⟨outs, h1, h2⟩
  · exact .inl h
  · refine .inr ⟨outs, h1, fun i f hi => ?_⟩
    obtain ⟨p, h3, rfl⟩ := h2 i f hi
    rw [List.getElem?_map] at h3
    cases h4 : ps[i]? with
    | none => rw [h4] at h3; cases h3
    | some x => rw [h4] at h3; cases h3; exact ⟨x, rfl, rfl⟩

/-- Seven polls: the first version; still current; sending fails; the second version; receiving fails in the header section; still current; back to the first version. -/
example : revalidate httpParser exCfg 300 (ascii "/status") (ascii "example.com") 1 0
    ([(0, 0, 100, 100), (0, 0, 100, 100), (0, 0, 3, 100), (1, 0, 100, 100), (1, 0, 100, 3), (1, 0, 100, 100), (0, 0, 100, 100)].map
      fun p => exPoll twoVersions p.1 p.2.1 p.2.2.1 p.2.2.2) none [] eHdr (flakyResp 1 200) xMem [] =
    .ok [some (twoVersions 0), some (twoVersions 0), none, some (twoVersions 1), none, some (twoVersions 1), some (twoVersions 0)] := by decide +kernel

end CoreHttp.Props

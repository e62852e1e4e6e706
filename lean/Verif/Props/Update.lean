import Verif.Props.Once
import Verif.Props.Cache
import Verif.Spec.Update

/-! # C119: a change that is written back with If-Match does not overwrite what the application has not seen -/

namespace CoreHttp.Props
open CoreHttp Spec Spec.Upload Spec.Once Spec.Update Ref Machine
variable {σ : Type} {cfg : Cfg} {resp : Resp σ} {rh h : ReqHeaders} {b rb bb : Nat} {got rest : σ → Bytes} {path host tag data : Bytes} {fl sendFl : UInt32}

/-- The message that writes. -/
def putMsg (cfg : Cfg) (path host tag data : Bytes) (fl sendFl : UInt32) : Message :=
  ⟨putLine path, documentedHeaders cfg.userAgent host fl.toNat ++ [(ascii "If-Match", tag)] ++ autoLength data.length sendFl.toNat, data⟩

theorem one_ifmatch (ua ho : Bytes) (fl k sfl : Nat) :
    (documentedHeaders ua ho fl ++ [(ascii "If-Match", tag)] ++ autoLength k sfl).filter (·.1 == ascii "If-Match") = [(ascii "If-Match", tag)] := by
  have e1 : (ascii "User-Agent" == ascii "If-Match") = false := by decide
  have e2 : (ascii "Host" == ascii "If-Match") = false := by decide
  have e3 : (ascii "Connection" == ascii "If-Match") = false := by decide
  have e4 : (ascii "If-Match" == ascii "If-Match") = true := by decide
  have e5 : (ascii "Content-Length" == ascii "If-Match") = false := by decide
  unfold documentedHeaders autoLength
  cases fl.testBit 1 <;> cases fl.testBit 0 <;> cases addsContentLength k sfl <;> simp [List.filter_cons, e1, e2, e3, e4, e5]

theorem unframed_put (ua ho : Bytes) (fl : Nat) (me : Bytes) :
    (⟨me, path, documentedHeaders ua ho fl ++ [(ascii "If-Match", tag)]⟩ : Described).Unframed := by
  have e1 : ¬ (ascii "User-Agent").map lowerAscii = ascii "content-length" := by decide +kernel
  have e2 : ¬ (ascii "Host").map lowerAscii = ascii "content-length" := by decide +kernel
  have e3 : ¬ (ascii "Connection").map lowerAscii = ascii "content-length" := by decide +kernel
  have e4 : ¬ (ascii "If-Match").map lowerAscii = ascii "content-length" := by decide +kernel
  have f1 : ¬ (ascii "User-Agent").map lowerAscii = ascii "transfer-encoding" := by decide +kernel
  have f2 : ¬ (ascii "Host").map lowerAscii = ascii "transfer-encoding" := by decide +kernel
  have f3 : ¬ (ascii "Connection").map lowerAscii = ascii "transfer-encoding" := by decide +kernel
  have f4 : ¬ (ascii "If-Match").map lowerAscii = ascii "transfer-encoding" := by decide +kernel
  constructor <;>
  · unfold valuesOf documentedHeaders
    cases fl.testBit 1 <;> cases fl.testBit 0 <;> simp [List.filter_cons, e1, e2, e3, e4, f1, f2, f3, f4]

theorem put_ops (hpa : path ≠ []) {cap : Nat}
    (hsize : cap + (requestBlock (requestLine (ascii "PUT") path) (documentedHeaders cfg.userAgent host fl.toNat)).length < 2 ^ cfg.sizeBits)
    (hsize' : cap + tag.length + 14 < 2 ^ cfg.sizeBits) : ∀ op ∈ putOps path host fl tag, OpOk cfg cap op := by
  have hep : effectivePath (some path) = path := by
    unfold effectivePath
    cases path with
    | nil => exact absurd rfl hpa
    | cons x t => rfl
  intro op hop
  unfold putOps at hop
  rcases List.mem_cons.mp hop with rfl | hop
  · refine ⟨?_, trivial⟩
    show cap + (requestBlock (requestLine (ascii "PUT") (effectivePath (some path))) (documentedHeaders cfg.userAgent host fl.toNat)).length < _
    rw [hep]; exact hsize
  · simp only [List.mem_cons, List.not_mem_nil, or_false] at hop
    subst hop
    refine ⟨?_, trivial⟩
    show cap + ((ascii "If-Match").length + tag.length + 6) < _
    have h2 : (ascii "If-Match").length = 8 := by decide
    omega

/-- One call of the loop. -/
theorem put_call {a : Shot σ} {m m1 : Mem} {room : Nat} {sts : List Status}
    (hset : Setup true httpParser cfg a.transport a.send a.recv h rb (some bb) room resp b m) (hd : data.length ≤ room)
    (hpa : path ≠ []) (hclp : CleanValue path) (hfl : sendFl.toNat.testBit 0 = false)
    (hsize : h.bufferLen + (requestBlock (requestLine (ascii "PUT") path) (documentedHeaders cfg.userAgent host fl.toNat)).length < 2 ^ cfg.sizeBits)
    (hsize' : h.bufferLen + tag.length + 14 < 2 ^ cfg.sizeBits) (hall : sts.all (· == .success) = true)
    (e : runBuildOps cfg (put m bb data) h (putOps path host fl tag) = .ok (sts, rh, m1)) (fuel : Nat) :
    CallPre true httpParser cfg a.transport a.send a.recv rh rb (some bb) data.length resp b m1 ∧ rh.bufferLen = h.bufferLen ∧ ReqIs false (headerBlock m1 rh) ∧
    readMessage (wireRequest m1 rh (some bb) data.length sendFl) = some (putMsg cfg path host tag data fl sendFl, []) ∧
    ∃ res w', HTTPClient_Send httpParser cfg fuel (some a.transport) (some rh) (some bb) data.length (some resp) sendFl ⟨a.start, m1, []⟩ = (res, w') ∧
      (∀ f, res ≠ .fault f) ∧ (∀ m, Found [w'.log] m → m = putMsg cfg path host tag data fl sendFl) ∧
      ∀ st orh oresp, res = .ok (st, orh, oresp) → ∃ rh' resp2, orh = some rh' ∧ oresp = some resp2 ∧ SetUp (withClock resp) resp2 ∧ rh'.pBuffer = some rb ∧
        rh'.bufferLen = h.bufferLen ∧ (∀ i, (w'.mem i).length = (m i).length) ∧
        ∀ (s : Bytes × Bytes) (hist : List (Change × Bytes)), ¬ headersOnly resp.respOptionFlags → FlakyServer a.serves got rest a.send a.recv resp → Confirms a path s hist → got a.start = [] →
          st = .success → confirms resp2.statusCode → ∃ (i : Nat) (t : Bytes), hist[i]? = some (.message (putMsg cfg path host tag data fl sendFl), t) ∧
            Holds path (putMsg cfg path host tag data fl sendFl) (after path s (hist.take i)).2 := by
  have hroomB := (hset.bodyRoom bb rfl).1
  have hputl := put_length (m := m) (bb := bb) (piece := data) (by omega)
  have hmaxB := hset.bodyMax
  have hset0 : Setup true httpParser cfg a.transport a.send a.recv h rb (some bb) data.length resp b (put m bb data) :=
    { hset with
      reqRoom := by rw [hputl]; exact hset.reqRoom
      room := by rw [hputl]; exact hset.room
      bodyNone := (fun h => nomatch h)
      bodyRoom := (fun b' hb' => by cases hb'; rw [hputl]; exact ⟨by omega, (hset.bodyRoom bb rfl).2⟩)
      bodyMax := by omega }
  have hep : effectivePath (some path) = path := by
    unfold effectivePath
    cases path with
    | nil => exact absurd rfl hpa
    | cons x t => rfl
  have hops := put_ops (cfg := cfg) (host := host) (fl := fl) (tag := tag) (cap := h.bufferLen) hpa hsize hsize'
  obtain ⟨_, _, _, e7, hlen7, _, _, _, hfr, _⟩ := runBuildOps_spec hset0.agent _ (put m bb data) h rb none hset0.reqBuf hset0.reqRoom hops
  rw [e] at e7
  cases e7
  have hone : ∀ st ∈ sts, st = .success := fun st hst => by simpa using List.all_eq_true.mp hall st hst
  have habs : Spec.absRun cfg.userAgent none ((putOps path host fl tag).zip sts) =
      some (requestLine (ascii "PUT") path, documentedHeaders cfg.userAgent host fl.toNat ++ [(ascii "If-Match", tag)]) := by
    unfold putOps at hlen7 ⊢
    obtain ⟨s1, s2, rfl⟩ : ∃ s1 s2, sts = [s1, s2] := by
      match sts, hlen7 with
      | [s1, s2], _ => exact ⟨s1, s2, rfl⟩
    obtain rfl := hone s1 (by simp)
    obtain rfl := hone s2 (by simp)
    simp only [List.zip_cons_cons, List.zip_nil_right, Spec.absRun, Spec.absStep, Option.map_some, hep]
  obtain ⟨hp, hbl1, hB, hne, hcl, hbd⟩ := built hset0 hops e habs
  rw [put_body] at hbd
  have hlen1 : ∀ i, (m1 i).length = (m i).length := by
    intro i
    by_cases hi : i = rb
    · subst hi; rw [hfr.2.1, hputl]
    · rw [hfr.1 i hi, hputl]
  have hreq : ReqIs false (headerBlock m1 rh) := by
    show ¬ ascii "HEAD" <+: headerBlock m1 rh
    rw [hB]
    intro hpre
    unfold requestBlock requestLine at hpre
    have := List.prefix_iff_eq_take.mp hpre
    have h2 := congrArg (fun x : Bytes => x[0]?) this
    revert h2
    simp [ascii]
  have hq : (⟨ascii "PUT", path, documentedHeaders cfg.userAgent host fl.toNat ++ [(ascii "If-Match", tag)]⟩ : Described).Clean :=
    ⟨(show CleanValue (ascii "PUT") by decide), hclp, hcl, hne⟩
  have hu := unframed_put (path := path) (tag := tag) cfg.userAgent host fl.toNat (ascii "PUT")
  have hline : (⟨ascii "PUT", path, documentedHeaders cfg.userAgent host fl.toNat ++ [(ascii "If-Match", tag)]⟩ : Described).line = putLine path := by
    show ascii "PUT" ++ ascii " " ++ path ++ ascii " HTTP/1.1" = _
    unfold putLine
    have e4 : ascii "PUT" ++ ascii " " = ascii "PUT " := by decide
    rw [e4]
  have hwire : readMessage (wireRequest m1 rh (some bb) data.length sendFl) = some (putMsg cfg path host tag data fl sendFl, []) := by
    have hr := read_length (n := data.length) (fl := sendFl.toNat) hq hu hfl (bodyOf_length hp) []
    rw [List.append_nil, ← wire_described (n := data.length) (flags := sendFl) hq hB, hbd, hline] at hr
    unfold wireRequest
    rw [hbd]
    exact hr
  refine ⟨hp, hbl1, hreq, hwire, ?_⟩
  obtain ⟨res, w', evs, e5, hl, hw⟩ := C115_whole (w := ⟨a.start, m1, []⟩) (q := ⟨ascii "PUT", path, documentedHeaders cfg.userAgent host fl.toNat ++ [(ascii "If-Match", tag)]⟩) (flags := sendFl) hp hB hq hu hfl fuel
  refine ⟨res, w', e5, ?_, ?_, ?_⟩
  · rintro f rfl
    obtain ⟨_, w2, e6, hnf, _⟩ := C60_safe (w := ⟨a.start, m1, []⟩) (flags := sendFl) hp fuel
    rw [e5] at e6
    cases e6
    exact hnf f rfl
  · rintro m' ⟨evs', hev, pre, rest', hpre, hm⟩
    rw [List.mem_singleton, hl, List.nil_append] at hev
    subst hev
    rcases hw pre hpre with h1 | ⟨_, h1⟩
    · rw [h1] at hm; cases hm
    · rw [h1, hbd, hline] at hm
      cases hm
      rfl
  · rintro st orh oresp rfl
    obtain ⟨rh', resp2, rfl, rfl, hsu2, hb2', hbl2, _, _, _⟩ := send_leaves (w := ⟨a.start, m1, []⟩) hp e5
    refine ⟨rh', resp2, rfl, rfl, hsu2, hb2', by rw [hbl2, hbl1], ?_, ?_⟩
    · intro i
      obtain ⟨_, w2, e6, _, _, h3, _⟩ := C60_safe (w := ⟨a.start, m1, []⟩) (flags := sendFl) hp fuel
      rw [e5] at e6
      cases e6
      rw [h3 i]; exact hlen1 i
    · intro s hist hflag hSA htrue hgs hst hcode
      have hserves := fun x (hx : a.serves (wireRequest m1 rh (some bb) data.length sendFl) x) => htrue _ x _ hx hwire rfl
      obtain ⟨res, w3, evs, e7, hl5, h5⟩ := C90_exchange (w := ⟨a.start, m1, []⟩) (flags := sendFl) hp hreq hflag hSA hgs
        (fun x hx => (hserves x hx).imp fun r h => ⟨h.1, h.2.1⟩) fuel
      rw [e5] at e7
      cases e7
      rcases h5 _ _ resp2 rfl with ⟨_, h6, _⟩ | ⟨x, hx, _, h7⟩
      · exact absurd hst h6
      obtain ⟨r, ok, hxr, hd⟩ := hserves x hx
      rcases h7 r ok hxr with ⟨_, hrec, g⟩ | ⟨h6, _⟩
      case inr => exact absurd hst h6
      exact hd (by rw [← g.statusCode]; exact hcode)

/-- A call that reads. -/
theorem get_call {p : Poll σ} {m m1 : Mem} {sts : List Status}
    (hset : Setup true httpParser cfg p.transport p.send p.recv h rb none 0 resp b m) (hpa : path ≠ []) (hclp : CleanValue path)
    (hops : ∀ op ∈ pollOps path host fl none, OpOk cfg h.bufferLen op) (hall : sts.all (· == .success) = true)
    (e : runBuildOps cfg m h (getOps path host fl) = .ok (sts, rh, m1)) (fuel : Nat)
    (hflag : ¬ headersOnly resp.respOptionFlags) (hSA : FlakyServer p.serves got rest p.send p.recv resp) (htrue : p.Truthful path) (hgs : got p.start = []) :
    ∃ res w', HTTPClient_Send httpParser cfg fuel (some p.transport) (some rh) none 0 (some resp) sendFl ⟨p.start, m1, []⟩ = (res, w') ∧
      (∀ f, res ≠ .fault f) ∧
      ∀ st orh oresp, res = .ok (st, orh, oresp) → ∃ rh' resp2, orh = some rh' ∧ oresp = some resp2 ∧ SetUp (withClock resp) resp2 ∧ rh'.pBuffer = some rb ∧
        rh'.bufferLen = h.bufferLen ∧ (∀ i, (w'.mem i).length = (m i).length) ∧
        (st = .success → resp2.statusCode = 200 → bodyBytes w'.mem resp2 = p.file ∧
          ∃ l k w2, HTTPClient_ReadHeader httpParser (some resp2) (some (ascii "ETag")) (some none) (some 0) w' = (.ok (.success, some l, some k), w2) ∧
            w2.mem = w'.mem ∧ valueAt w'.mem resp2 l k = p.tag) := by
  obtain ⟨hp, hbl1, hlen1, hreq, hs, hread, hone⟩ := poll_request (sendFl := sendFl) hset hpa hclp hops hall e
  have hserves := fun x (hx : p.serves (wireRequest m1 rh none 0 sendFl) x) => htrue.2 _ x hs hx hread
  obtain ⟨res, w', evs, e5, hl5, h5⟩ := C90_exchange (w := ⟨p.start, m1, []⟩) (flags := sendFl) hp hreq hflag hSA hgs
    (fun x hx => (hserves x hx).imp fun r h => ⟨h.1, h.2.1⟩) fuel
  refine ⟨res, w', e5, ?_, ?_⟩
  · rintro f rfl
    obtain ⟨_, w2, e6, hnf, _⟩ := C60_safe (w := ⟨p.start, m1, []⟩) (flags := sendFl) hp fuel
    rw [e5] at e6
    cases e6
    exact hnf f rfl
  · rintro st orh oresp rfl
    obtain ⟨rh', resp2, rfl, rfl, hsu2, hb2', hbl2, _, _, _⟩ := send_leaves (w := ⟨p.start, m1, []⟩) hp e5
    have hlen : ∀ i, (w'.mem i).length = (m i).length := by
      intro i
      obtain ⟨_, w2, e6, _, _, h3, _⟩ := C60_safe (w := ⟨p.start, m1, []⟩) (flags := sendFl) hp fuel
      rw [e5] at e6
      cases e6
      rw [h3 i]; exact hlen1 i
    refine ⟨rh', resp2, rfl, rfl, hsu2, hb2', by rw [hbl2, hbl1], hlen, ?_⟩
    obtain ⟨u1, u2, u3, u4, u5⟩ := hsu2
    rintro rfl h200
    rcases h5 _ _ resp2 rfl with ⟨_, h6, _⟩ | ⟨x, hx, _, h7⟩
    · exact absurd rfl h6
    obtain ⟨r, ok, hxr, hd, _⟩ := hserves x hx
    rcases h7 r ok hxr with ⟨_, hrec, g⟩ | ⟨h6, _⟩
    case inr => exact absurd rfl h6
    obtain ⟨hdata, hetag⟩ := hd (by rw [← g.statusCode]; exact h200)
    have hbuf : resp2.pBuffer = some b := u1.trans hset.buf
    have hroom2 : resp2.bufferLen ≤ (w'.mem b).length := by rw [u2, hlen]; exact hset.room
    have hhl : r.head.length ≤ resp2.bufferLen := by
      have h1 : r.bytes.length = r.head.length + r.content.bytes.length := by simp [Response.bytes]
      have h2 : r.bytes.length ≤ resp.bufferLen := by rw [← hrec]; exact send_received_le (w := ⟨p.start, m1, []⟩) hp e5 hl5
      have u2' : resp2.bufferLen = resp.bufferLen := u2
      omega
    obtain ⟨loc, len, w2, e6, hm2, hv1⟩ := lookup_value (w := w') hbuf hroom2 ok hhl (g.head b hbuf) (show ascii "ETag" ≠ [] by decide) hetag
    exact ⟨by rw [g.body]; exact hdata, loc, len, w2, e6, hm2, hv1⟩

/-- A message that writes what the application has computed from what one of the polls has told. -/
def IsUpdate (cfg : Cfg) (path host : Bytes) (fl sendFl : UInt32) (f : Bytes → Bytes) (rounds : List (Poll σ × Shot σ)) (m : Message) : Prop :=
  ∃ p ∈ rounds.map (·.1), m = putMsg cfg path host p.tag (f p.file) fl sendFl

theorem get_setup {send : σ → Bytes → Int × σ} {recv : σ → Nat → Int × Bytes × σ} {T : Transport σ} {h2 : ReqHeaders} {resp2 : Resp σ} {m m2 : Mem} {body : Option Nat} {n : Nat}
    (hs : Setup true httpParser cfg T send recv h rb body n resp b m) (hsu : SetUp (withClock resp) resp2)
    (hb2 : h2.pBuffer = some rb) (hbl2 : h2.bufferLen = h.bufferLen) (hlen : ∀ i, (m2 i).length = (m i).length) :
    Setup true httpParser cfg T send recv h2 rb body n resp2 b m2 := by
  obtain ⟨u1, u2, u3, u4, u5⟩ := hsu
  exact
  { hs with
    reqBuf := hb2
    reqRoom := by rw [hbl2, hlen]; exact hs.reqRoom
    reqSize := by rw [hbl2]; exact hs.reqSize
    buf := u1.trans hs.buf
    pos := by rw [u2]; exact hs.pos
    room := by rw [u2, hlen]; exact hs.room
    size := by rw [u2]; exact hs.size
    callback := by rw [u3]; exact hs.callback
    bodyRoom := (fun b' hb' => by rw [hlen]; exact hs.bodyRoom b' hb') }

/-- What every round needs of the state in which it begins. -/
structure RoundOk (cfg : Cfg) (got rest : σ → Bytes) (b rb bb room : Nat) (h : ReqHeaders) (resp : Resp σ) (m : Mem) (x : Poll σ × Shot σ) : Prop where
  reads : Setup true httpParser cfg x.1.transport x.1.send x.1.recv h rb none 0 resp b m
  writes : Setup true httpParser cfg x.2.transport x.2.send x.2.recv h rb (some bb) room resp b m
  server : FlakyServer x.1.serves got rest x.1.send x.1.recv resp
  server2 : FlakyServer x.2.serves got rest x.2.send x.2.recv resp

theorem RoundOk.next {room : Nat} {m m2 : Mem} {x : Poll σ × Shot σ} {h2 : ReqHeaders} {resp2 : Resp σ} (hx : RoundOk cfg got rest b rb bb room h resp m x)
    (hsu : SetUp (withClock resp) resp2) (hb2 : h2.pBuffer = some rb) (hbl2 : h2.bufferLen = h.bufferLen) (hlen : ∀ i, (m2 i).length = (m i).length) :
    RoundOk cfg got rest b rb bb room h2 resp2 m2 x :=
  ⟨get_setup hx.reads hsu hb2 hbl2 hlen, get_setup hx.writes hsu hb2 hbl2 hlen, flaky_after hx.server hsu, flaky_after hx.server2 hsu⟩

theorem modify_run {f : Bytes → Bytes} {room : Nat} {s : Bytes × Bytes} {hist : List (Change × Bytes)} {all : List (Poll σ × Shot σ)}
    (hpa : path ≠ []) (hclp : CleanValue path) (hfl : sendFl.toNat.testBit 0 = false)
    (hget : h.bufferLen + (requestBlock (requestLine (ascii "GET") path) (documentedHeaders cfg.userAgent host fl.toNat)).length < 2 ^ cfg.sizeBits)
    (hput : h.bufferLen + (requestBlock (requestLine (ascii "PUT") path) (documentedHeaders cfg.userAgent host fl.toNat)).length < 2 ^ cfg.sizeBits)
    (htag : ∀ x ∈ all, h.bufferLen + x.1.tag.length + 14 < 2 ^ cfg.sizeBits)
    (htrue : ∀ x ∈ all, x.1.Truthful path ∧ got x.1.start = []) (fuel : Nat) :
    ∀ (rounds : List (Poll σ × Shot σ)) (logs : List (List (Ev PLog))) (h' : ReqHeaders) (resp' : Resp σ) (m' : Mem), h'.bufferLen = h.bufferLen →
      ¬ headersOnly resp'.respOptionFlags → (∀ x ∈ rounds, x ∈ all) → (∀ x ∈ rounds, RoundOk cfg got rest b rb bb room h' resp' m' x) →
      (∀ m, Found logs m → IsUpdate cfg path host fl sendFl f all m) →
      ∃ out logs', readModifyWrite httpParser cfg fuel path host fl sendFl f bb room rounds logs h' resp' m' = (out, logs') ∧
        (out = .more ∨ ∃ c, out = .ok c) ∧ (∀ m, Found logs' m → IsUpdate cfg path host fl sendFl f all m) ∧
        ((∀ x ∈ rounds, Confirms x.2 path s hist ∧ got x.2.start = []) → out = .ok true →
          ∃ (i : Nat) (t : Bytes) (m : Message), hist[i]? = some (.message m, t) ∧ Holds path m (after path s (hist.take i)).2 ∧
            IsUpdate cfg path host fl sendFl f all m) := by
  have hep : effectivePath (some path) = path := by
    unfold effectivePath
    cases path with
    | nil => exact absurd rfl hpa
    | cons x t => rfl
  intro rounds
  induction rounds with
  | nil => intro logs h' resp' m' _ _ _ _ hlogs; exact ⟨_, _, rfl, .inr ⟨_, rfl⟩, hlogs, fun _ h => by cases h⟩
  | cons x rounds ih =>
    obtain ⟨p, a⟩ := x
    intro logs h' resp' m' hbl hflag hsub hok hlogs
    have hall0 := hsub (p, a) (by simp)
    have hA := hok (p, a) (by simp)
    obtain ⟨htr, hgs⟩ := htrue _ hall0
    have hset := hA.reads
    have hops : ∀ op ∈ pollOps path host fl none, OpOk cfg h'.bufferLen op := by
      intro op hop
      unfold pollOps at hop
      simp only [List.mem_cons, List.not_mem_nil, or_false] at hop
      subst hop
      refine ⟨?_, trivial⟩
      show h'.bufferLen + (requestBlock (requestLine (ascii "GET") (effectivePath (some path))) (documentedHeaders cfg.userAgent host fl.toNat)).length < _
      rw [hep, hbl]; exact hget
    obtain ⟨sts, rh, m1, e, _⟩ := runBuildOps_spec hset.agent _ m' h' rb none hset.reqBuf hset.reqRoom hops
    have e : runBuildOps cfg m' h' (getOps path host fl) = .ok (sts, rh, m1) := e
    unfold readModifyWrite
    rw [e]
    dsimp only
    by_cases hall : sts.all (· == .success) = true
    case neg => rw [if_neg hall]; exact ⟨_, _, rfl, .inr ⟨_, rfl⟩, hlogs, fun _ h => by cases h⟩
    rw [if_pos hall]
    obtain ⟨res, w1, e5, hnf, hafter⟩ := get_call (sendFl := sendFl) (p := p) hset hpa hclp hops hall e fuel hflag hA.server htr hgs
    rw [e5]
    rcases res with ⟨st, orh, oresp⟩ | x | _
    · obtain ⟨rh1, resp1, rfl, rfl, hsu1, hb1, hbl1, hlen1, hread⟩ := hafter st orh oresp rfl
      dsimp only
      have hflag1 : ¬ headersOnly resp1.respOptionFlags := by rw [hsu1.2.2.2.2]; exact hflag
      have hskip : ∀ (m2 : Mem), m2 = w1.mem →
          ∃ out logs', readModifyWrite httpParser cfg fuel path host fl sendFl f bb room rounds logs rh1 resp1 m2 = (out, logs') ∧
            (out = .more ∨ ∃ c, out = .ok c) ∧ (∀ m, Found logs' m → IsUpdate cfg path host fl sendFl f all m) ∧
            ((∀ x ∈ (p, a) :: rounds, Confirms x.2 path s hist ∧ got x.2.start = []) → out = .ok true →
              ∃ (i : Nat) (t : Bytes) (m : Message), hist[i]? = some (.message m, t) ∧ Holds path m (after path s (hist.take i)).2 ∧
                IsUpdate cfg path host fl sendFl f all m) := by
        rintro _ rfl
        obtain ⟨out, logs', e6, g1, g2, g3⟩ := ih logs rh1 resp1 w1.mem (hbl1.trans hbl) hflag1 (fun x hx => hsub x (by simp [hx]))
          (fun x hx => (hok x (by simp [hx])).next hsu1 hb1 hbl1 hlen1) hlogs
        exact ⟨out, logs', e6, g1, g2, fun hc => g3 fun x hx => hc x (by simp [hx])⟩
      by_cases hst : st = .success ∧ resp1.statusCode = 200
      case neg => rw [if_neg hst]; exact hskip _ rfl
      rw [if_pos hst]
      obtain ⟨hbody, loc, len, w2, e6, hm2, hval⟩ := hread hst.1 hst.2
      rw [e6]
      dsimp only
      rw [hm2, hbody, hval]
      by_cases hroom : (f p.file).length ≤ room
      case neg => rw [if_neg hroom]; exact ⟨_, _, rfl, .inr ⟨_, rfl⟩, hlogs, fun _ h => by cases h⟩
      rw [if_pos hroom]
      have hset1 := (hA.next hsu1 hb1 hbl1 hlen1).writes
      have hputl := put_length (m := w1.mem) (bb := bb) (piece := f p.file) (Nat.le_trans hroom (hset1.bodyRoom bb rfl).1)
      have hs1 : rh1.bufferLen + (requestBlock (requestLine (ascii "PUT") path) (documentedHeaders cfg.userAgent host fl.toNat)).length < 2 ^ cfg.sizeBits := by
        rw [hbl1, hbl]; exact hput
      have hs2 : rh1.bufferLen + p.tag.length + 14 < 2 ^ cfg.sizeBits := by
        rw [hbl1, hbl]; exact htag _ hall0
      obtain ⟨sts2, rh2, m2, e7, _⟩ := runBuildOps_spec hset1.agent _ (put w1.mem bb (f p.file)) rh1 rb none hset1.reqBuf (by rw [hputl]; exact hset1.reqRoom)
        (put_ops (cfg := cfg) (host := host) (fl := fl) (tag := p.tag) (cap := rh1.bufferLen) hpa hs1 hs2)
      rw [e7]
      dsimp only
      by_cases hall2 : sts2.all (· == .success) = true
      case neg => rw [if_neg hall2]; exact ⟨_, _, rfl, .inr ⟨_, rfl⟩, hlogs, fun _ h => by cases h⟩
      rw [if_pos hall2]
      obtain ⟨_, _, _, _, res, w3, e8, hnf3, hfound, hafter3⟩ := put_call (got := got) (rest := rest) (a := a) (sendFl := sendFl) hset1 hroom hpa hclp hfl hs1 hs2 hall2 e7 fuel
      have hup : IsUpdate cfg path host fl sendFl f all (putMsg cfg path host p.tag (f p.file) fl sendFl) := ⟨p, List.mem_map.mpr ⟨_, hall0, rfl⟩, rfl⟩
      have hlogs3 : ∀ m, Found (logs ++ [w3.log]) m → IsUpdate cfg path host fl sendFl f all m := fun m hm =>
        (found_append.mp hm).elim (hlogs m) (fun h => by rw [hfound m h]; exact hup)
      rw [e8]
      rcases res with ⟨st3, orh3, oresp3⟩ | x | _
      · obtain ⟨rh3, resp3, rfl, rfl, hsu3, hb3, hbl3, hlen3, hconf⟩ := hafter3 st3 orh3 oresp3 rfl
        dsimp only
        by_cases hc3 : st3 = .success ∧ confirms resp3.statusCode
        · rw [if_pos hc3]
          refine ⟨_, _, rfl, .inr ⟨_, rfl⟩, hlogs3, fun hc _ => ?_⟩
          obtain ⟨hc1, hc2⟩ := hc (p, a) (by simp)
          obtain ⟨i, t, h1, h2⟩ := hconf s hist hflag1 (hA.next hsu1 hb1 hbl1 hlen1).server2 hc1 hc2 hc3.1 hc3.2
          exact ⟨i, t, _, h1, h2, hup⟩
        · rw [if_neg hc3]
          obtain ⟨out, logs', e9, g1, g2, g3⟩ := ih (logs ++ [w3.log]) rh3 resp3 w3.mem (hbl3.trans (hbl1.trans hbl)) (by rw [hsu3.2.2.2.2]; exact hflag1) (fun x hx => hsub x (by simp [hx]))
            (fun x hx => ((hok x (by simp [hx])).next hsu1 hb1 hbl1 hlen1).next hsu3 hb3 hbl3 hlen3) hlogs3
          exact ⟨out, logs', e9, g1, g2, fun hc => g3 fun x hx => hc x (by simp [hx])⟩
      · exact absurd rfl (hnf3 x)
      · exact ⟨_, _, rfl, .inl rfl, hlogs3, fun _ h => by cases h⟩
    · exact absurd rfl (hnf x)
    · exact ⟨_, _, rfl, .inl rfl, hlogs, fun _ h => by cases h⟩

theorem one_ifmatch_msg (tag data : Bytes) : (putMsg cfg path host tag data fl sendFl).headers.filter (·.1 == ascii "If-Match") = [(ascii "If-Match", tag)] :=
  one_ifmatch _ _ _ _ _

theorem after_succ (s : Bytes × Bytes) {hist : List (Change × Bytes)} {i : Nat} {c : Change × Bytes} (h : hist[i]? = some c) :
    after path s (hist.take (i + 1)) = change path (after path s (hist.take i)) c := by
  have h1 : hist.take (i + 1) = hist.take i ++ [c] := by rw [List.take_add_one, h]; rfl
  unfold after
  rw [h1, List.foldl_append]
  rfl

/-- When the server processes a message of the application and its condition holds, then the content was what the application has computed the new one from. -/
theorem update_applied {f : Bytes → Bytes} {s : Bytes × Bytes} {hist : List (Change × Bytes)} {all : List (Poll σ × Shot σ)} (hread : ∀ x ∈ all, Reads x.1 path s hist)
    (htags : StrongTags path s hist) {i : Nat} {t : Bytes} {m : Message} (hi : hist[i]? = some (.message m, t)) (hh : Holds path m (after path s (hist.take i)).2)
    (hm : IsUpdate cfg path host fl sendFl f all m) : (after path s (hist.take (i + 1))).1 = f (after path s (hist.take i)).1 := by
  rw [after_succ s hi]
  obtain ⟨p, hp, rfl⟩ := hm
  obtain ⟨x, hx, rfl⟩ := List.mem_map.mp hp
  obtain ⟨_, j, hj⟩ := hread x hx
  unfold change
  dsimp only
  rw [if_pos hh]
  show f x.1.file = _
  have h1 := hh.2
  rw [one_ifmatch_msg] at h1
  simp only [List.cons.injEq, Prod.mk.injEq, true_and, and_true] at h1
  have h2 := htags j i (by rw [hj]; exact h1)
  rw [hj] at h2
  exact congrArg f h2

/-- **C119.** An application changes a resource, on which others write too, from whatever it is, `c`, to `f c`: it reads the resource with its entity tag, and writes the new content with If-Match, each
over a connection of its own, again and again until the write is confirmed. Whatever fails, and when ever and how often the server processes the messages it has found, those of given up
connections much later, and whatever others write in between (`hist`): no call faults; whenever a message of the application changes the resource, then from some `c` to `f c` - nothing
written by others in between is lost; and when the application has the confirmation, and what the server says is true, then this has happened. (`.more`: a call did not return within `fuel` steps.) -/
theorem C119_no_lost_update {f : Bytes → Bytes} {room : Nat} {m : Mem} {rounds : List (Poll σ × Shot σ)} {s : Bytes × Bytes} {hist : List (Change × Bytes)}
    (hset : ∀ x ∈ rounds, Setup true httpParser cfg x.1.transport x.1.send x.1.recv h rb none 0 resp b m ∧
      Setup true httpParser cfg x.2.transport x.2.send x.2.recv h rb (some bb) room resp b m)
    (hserver : ∀ x ∈ rounds, FlakyServer x.1.serves got rest x.1.send x.1.recv resp ∧ FlakyServer x.2.serves got rest x.2.send x.2.recv resp ∧
      got x.1.start = [] ∧ got x.2.start = [])
    (hread : ∀ x ∈ rounds, Reads x.1 path s hist) (htags : StrongTags path s hist) (hflag : ¬ headersOnly resp.respOptionFlags)
    (hpa : path ≠ []) (hclp : CleanValue path) (hfl : sendFl.toNat.testBit 0 = false)
    (hget : h.bufferLen + (requestBlock (requestLine (ascii "GET") path) (documentedHeaders cfg.userAgent host fl.toNat)).length < 2 ^ cfg.sizeBits)
    (hput : h.bufferLen + (requestBlock (requestLine (ascii "PUT") path) (documentedHeaders cfg.userAgent host fl.toNat)).length < 2 ^ cfg.sizeBits)
    (htag : ∀ x ∈ rounds, h.bufferLen + x.1.tag.length + 14 < 2 ^ cfg.sizeBits) (fuel : Nat)
    {out : Run Bool} {logs : List (List (Ev PLog))} (e : readModifyWrite httpParser cfg fuel path host fl sendFl f bb room rounds [] h resp m = (out, logs))
    (hhist : ∀ m t, (Change.message m, t) ∈ hist → Found logs m) :
    (out = .more ∨ ∃ c, out = .ok c) ∧
    (∀ (i : Nat) (m : Message) (t : Bytes), hist[i]? = some (.message m, t) →
      after path s (hist.take (i + 1)) = after path s (hist.take i) ∨ (after path s (hist.take (i + 1))).1 = f (after path s (hist.take i)).1) ∧
    ((∀ x ∈ rounds, Confirms x.2 path s hist) → out = .ok true →
      ∃ (i : Nat) (m : Message) (t : Bytes), hist[i]? = some (.message m, t) ∧ (after path s (hist.take (i + 1))).1 = f (after path s (hist.take i)).1) := by
  obtain ⟨out', logs', e', g1, g2, g3⟩ := modify_run (got := got) (rest := rest) (s := s) (hist := hist) (all := rounds) (f := f) hpa hclp hfl hget hput htag
    (fun x hx => ⟨(hread x hx).1, (hserver x hx).2.2.1⟩) fuel rounds [] h resp m rfl hflag (fun x hx => hx)
    (fun x hx => ⟨(hset x hx).1, (hset x hx).2, (hserver x hx).1, (hserver x hx).2.1⟩) (fun m hm => by obtain ⟨_, h, _⟩ := hm; cases h)
  rw [e] at e'
  cases e'
  refine ⟨g1, ?_, ?_⟩
  · intro i m t hi
    by_cases hh : Holds path m (after path s (hist.take i)).2
    · exact .inr (update_applied hread htags hi hh (g2 m (hhist m t (List.mem_of_getElem? hi))))
    · refine .inl ?_
      rw [after_succ s hi]
      unfold change
      dsimp only
      rw [if_neg hh]
  · intro hc ho
    obtain ⟨i, t, m, hi, hh, hm⟩ := g3 (fun x hx => ⟨hc x hx, (hserver x hx).2.2.2⟩) ho
    exact ⟨i, m, t, hi, update_applied hread htags hi hh hm⟩

/-! ### Non-vacuity -/

theorem pollSetup (file : Nat → Bytes) (v t sends recvs q n : Nat) (hq : q = 0 ∨ q = 1) (hn : 0 < n ∧ n ≤ 200) :
    Setup true httpParser exCfg (exPoll file v t sends recvs).transport (exPoll file v t sends recvs).send (exPoll file v t sends recvs).recv eHdr 0 none 0 (flakyResp q n) q xMem :=
  have hx := peerCallPre [] [] q hq
  { parser := hx.parser, hasSend := rfl, hasRecv := rfl
    sendOk := (fun s d => by show (pollSend file v s d).1 ≤ _; unfold pollSend; split <;> dsimp only <;> omega)
    recvOk := (fun s len => by
      show (flakyRecv s len).1 ≤ _ ∧ _
      unfold exPoll flakyRecv
      dsimp only
      split
      · exact ⟨by dsimp only; omega, by dsimp only; rw [List.length_take]; omega⟩
      · exact ⟨by dsimp only; omega, by dsimp only; rw [List.length_take]; omega⟩)
    agent := by decide, reqBuf := rfl, reqRoom := by decide +kernel, reqSize := by decide
    buf := rfl, pos := hn.1, room := (Nat.le_trans hn.2 hx.room), size := (Nat.lt_of_le_of_lt hn.2 (by decide))
    callback := (fun h => nomatch h), bodyNone := fun _ => rfl
    bodyRoom := (fun bb h => nomatch h), bodyMax := by decide }

/-- The change: append `x`. -/
def exChange (c : Bytes) : Bytes := c ++ ascii "x"

/-- The message that writes `ax` over `a`, and the one that writes `bx` over `b`. -/
def exPut1 : Message := putMsg exCfg (ascii "/doc") (ascii "example.com") (tagOf 0) (exChange (ascii "a")) 1 0
def exPut2 : Message := putMsg exCfg (ascii "/doc") (ascii "example.com") (tagOf 1) (exChange (ascii "b")) 1 0

/-- Someone else writes `b` over `a`; then the server processes the messages, each twice. -/
def exChanges : List (Change × Bytes) :=
  [(.other (ascii "b"), tagOf 1), (.message exPut1, tagOf 2), (.message exPut2, tagOf 3), (.message exPut1, tagOf 4), (.message exPut2, tagOf 5)]

/-- The versions that the polls tell. -/
def exVersions (v : Nat) : Bytes := if v = 0 then ascii "a" else ascii "b"

/-- Three rounds. In the first, the application reads `a`, and its message gets to the server, but no response is received; in the second, reading fails; in the third it reads `b`
and gets the confirmation. -/
def exRounds : List (Poll FlakyEnv × Shot FlakyEnv) :=
  [(exPoll exVersions 0 0 100 100, (exShot [exPut2] (some (100, 0))).1), (exPoll exVersions 1 0 100 3, (exShot [exPut2] none).1),
   (exPoll exVersions 1 0 100 100, (exShot [exPut2] none).1)]

/-- The outcome. -/
def exModify : Run Bool × List (List (Ev PLog)) :=
  readModifyWrite httpParser exCfg 300 (ascii "/doc") (ascii "example.com") 1 0 exChange 2 5 exRounds [] eHdr (flakyResp 1 200) xMem

theorem exModify_found : exModify.1 = .ok true ∧ exModify.2.map (fun evs => (readMessage (accepted evs)).map (·.1)) = [some exPut1, some exPut2] := by
  constructor <;> decide +kernel

/-- The resource in the course of time. -/
theorem exChanges_after (i : Nat) : after (ascii "/doc") (ascii "a", tagOf 0) (exChanges.take i) =
    if i = 0 then (ascii "a", tagOf 0) else if i ≤ 2 then (ascii "b", tagOf 1) else (exChange (ascii "b"), tagOf 3) := by
  match i with
  | 0 => rfl
  | 1 => rfl
  | 2 => decide +kernel
  | 3 => decide +kernel
  | 4 => decide +kernel
  | i + 5 =>
    rw [List.take_of_length_le (show exChanges.length ≤ i + 5 from Nat.le_add_left _ _), if_neg (by omega), if_neg (by omega)]
    decide +kernel

/-- All hypotheses of C119 hold in this run. -/
example : (∀ (i : Nat) (m : Message) (t : Bytes), exChanges[i]? = some (.message m, t) →
      after (ascii "/doc") (ascii "a", tagOf 0) (exChanges.take (i + 1)) = after (ascii "/doc") (ascii "a", tagOf 0) (exChanges.take i) ∨
      (after (ascii "/doc") (ascii "a", tagOf 0) (exChanges.take (i + 1))).1 = exChange (after (ascii "/doc") (ascii "a", tagOf 0) (exChanges.take i)).1) ∧
    ∃ (i : Nat) (m : Message) (t : Bytes), exChanges[i]? = some (.message m, t) ∧
      (after (ascii "/doc") (ascii "a", tagOf 0) (exChanges.take (i + 1))).1 = exChange (after (ascii "/doc") (ascii "a", tagOf 0) (exChanges.take i)).1 := by
  have hrounds : ∀ x ∈ exRounds, (∃ v sends recvs o, (v = 0 ∨ v = 1) ∧ x = (exPoll exVersions v 0 sends recvs, (exShot [exPut2] o).1)) := by
    intro x hx
    simp only [exRounds, List.mem_cons, List.not_mem_nil, or_false] at hx
    rcases hx with rfl | rfl | rfl
    · exact ⟨_, _, _, _, .inl rfl, rfl⟩
    · exact ⟨_, _, _, _, .inr rfl, rfl⟩
    · exact ⟨_, _, _, _, .inr rfl, rfl⟩
  have hlen : exModify.2.length = 2 := by
    have := congrArg List.length exModify_found.2
    simpa using this
  have hfound : ∀ (i : Nat) (m : Message), [some exPut1, some exPut2][i]? = some (some m) → Found exModify.2 m := by
    intro i m hi
    have h0 : (exModify.2.map (fun evs => (readMessage (accepted evs)).map (·.1)))[i]? = some (some m) := by rw [exModify_found.2]; exact hi
    rw [List.getElem?_map] at h0
    cases he : exModify.2[i]? with
    | none => rw [he] at h0; cases h0
    | some evs =>
      rw [he, Option.map_some, Option.some.injEq] at h0
      cases hr : readMessage (accepted evs) with
      | none => rw [hr] at h0; cases h0
      | some p =>
        obtain ⟨m', r⟩ := p
        rw [hr] at h0
        cases h0
        exact ⟨evs, List.mem_of_getElem? he, evs, r, List.prefix_refl _, hr⟩
  have hconf : ∀ x ∈ exRounds, Confirms x.2 (ascii "/doc") (ascii "a", tagOf 0) exChanges := by
    intro x hx
    obtain ⟨v, sends, recvs, o, _, rfl⟩ := hrounds x hx
    intro q x m hx hq _
    obtain rfl : x = onceServe [exPut2] q := by cases o <;> exact hx
    unfold onceServe
    rw [hq]
    dsimp only
    by_cases hm : m ∈ [exPut2]
    · rw [if_pos hm]
      obtain rfl : m = exPut2 := by simpa using hm
      exact ⟨orderDone, orderDone_ok, rfl, fun _ => ⟨2, tagOf 3, rfl, by rw [exChanges_after]; exact ⟨rfl, one_ifmatch_msg _ _⟩⟩⟩
    · rw [if_neg hm]
      exact ⟨orderBusy, orderBusy_ok, rfl, fun h => absurd h (show ¬ confirms 503 by decide)⟩
  obtain ⟨_, h2, h3⟩ := C119_no_lost_update (got := fun s : FlakyEnv => s.2.1) (rest := fun s => s.2.2.1) (rb := 0) (b := 1) (bb := 2) (room := 5) (f := exChange) (hist := exChanges)
    (s := (ascii "a", tagOf 0)) (rounds := exRounds) (cfg := exCfg) (h := eHdr) (m := xMem) (path := ascii "/doc") (host := ascii "example.com") (fl := 1) (sendFl := 0) (resp := flakyResp 1 200)
    (by
      intro x hx
      obtain ⟨v, sends, recvs, o, _, rfl⟩ := hrounds x hx
      exact ⟨pollSetup _ _ _ _ _ 1 200 (.inr rfl) (by decide), onceSetup _ _ 5 1 200 (by decide) (.inr rfl) (by decide)⟩)
    (by
      intro x hx
      obtain ⟨v, sends, recvs, o, _, rfl⟩ := hrounds x hx
      refine ⟨pollServer _ _ 1 200, ?_, rfl, ?_⟩
      · cases o with
        | some p => exact onceFlakyServer _ 1 200
        | none => exact server_flaky (onceServer _ 1 200)
      · cases o <;> rfl)
    (by
      intro x hx
      obtain ⟨v, sends, recvs, o, hv, rfl⟩ := hrounds x hx
      refine ⟨exPoll_truthful exVersions (fun v => ?_) v 0 sends recvs _, v, ?_⟩
      · unfold exVersions
        split
        · exact Nat.le_trans (show (ascii "a").length ≤ 1 by decide) (by omega)
        · exact Nat.le_trans (show (ascii "b").length ≤ 1 by decide) (by omega)
      · rcases hv with rfl | rfl <;> rfl)
    (by
      intro i j
      rw [exChanges_after, exChanges_after]
      have d1 : tagOf 0 ≠ tagOf 1 := by decide +kernel
      have d2 : tagOf 0 ≠ tagOf 3 := by decide +kernel
      have d3 : tagOf 1 ≠ tagOf 3 := by decide +kernel
      repeat' split
      all_goals first | exact fun _ => rfl | exact fun h => absurd h (by assumption) | exact fun h => absurd h.symm (by assumption))
    (show ¬ ((0 : UInt32).toNat % 2 = 1) by decide) (by decide) (by decide) (by decide) (by decide +kernel) (by decide +kernel)
    (by
      intro x hx
      obtain ⟨v, sends, recvs, o, hv, rfl⟩ := hrounds x hx
      have h1 : (exPoll exVersions v 0 sends recvs).tag.length ≤ 12 := tagOf_length v (by omega)
      have h2 : eHdr.bufferLen + 12 + 14 < 2 ^ exCfg.sizeBits := by decide
      dsimp only
      omega)
    300 (out := exModify.1) (logs := exModify.2) (Prod.eta _).symm
    (by
      intro m t hm
      simp only [exChanges, List.mem_cons, List.not_mem_nil, or_false, Prod.mk.injEq, Change.message.injEq, reduceCtorEq, false_and, false_or] at hm
      rcases hm with ⟨rfl, _⟩ | ⟨rfl, _⟩ | ⟨rfl, _⟩ | ⟨rfl, _⟩
      · exact hfound 0 _ rfl
      · exact hfound 1 _ rfl
      · exact hfound 0 _ rfl
      · exact hfound 1 _ rfl)
  exact ⟨h2, h3 hconf exModify_found.1⟩

end CoreHttp.Props

import Verif.Props.Arrive
import Verif.Spec.Once

/-! # C118: a request that is repeated until it is confirmed is carried out exactly once -/

namespace CoreHttp.Props
open CoreHttp Spec Spec.Upload Spec.Once Ref Machine
variable {σ : Type} {cfg : Cfg} {resp : Resp σ} {rh h : ReqHeaders} {b rb bb : Nat} {got rest : σ → Bytes} {path host key order : Bytes} {fl sendFl : UInt32}

/-- The message. -/
def postMsg (cfg : Cfg) (path host key order : Bytes) (fl sendFl : UInt32) : Message :=
  ⟨postLine path, documentedHeaders cfg.userAgent host fl.toNat ++ [(ascii "Idempotency-Key", key)] ++ autoLength order.length sendFl.toNat, order⟩

theorem one_key (ua ho : Bytes) (fl k sfl : Nat) :
    (documentedHeaders ua ho fl ++ [(ascii "Idempotency-Key", key)] ++ autoLength k sfl).filter (·.1 == ascii "Idempotency-Key") = [(ascii "Idempotency-Key", key)] := by
  have e1 : (ascii "User-Agent" == ascii "Idempotency-Key") = false := by decide
  have e2 : (ascii "Host" == ascii "Idempotency-Key") = false := by decide
  have e3 : (ascii "Connection" == ascii "Idempotency-Key") = false := by decide
  have e4 : (ascii "Idempotency-Key" == ascii "Idempotency-Key") = true := by decide
  have e5 : (ascii "Content-Length" == ascii "Idempotency-Key") = false := by decide
  unfold documentedHeaders autoLength
  cases fl.testBit 1 <;> cases fl.testBit 0 <;> cases addsContentLength k sfl <;> simp [List.filter_cons, e1, e2, e3, e4, e5]

theorem unframed_post (ua ho : Bytes) (fl : Nat) (me : Bytes) :
    (⟨me, path, documentedHeaders ua ho fl ++ [(ascii "Idempotency-Key", key)]⟩ : Described).Unframed := by
  have e1 : ¬ (ascii "User-Agent").map lowerAscii = ascii "content-length" := by decide +kernel
  have e2 : ¬ (ascii "Host").map lowerAscii = ascii "content-length" := by decide +kernel
  have e3 : ¬ (ascii "Connection").map lowerAscii = ascii "content-length" := by decide +kernel
  have e4 : ¬ (ascii "Idempotency-Key").map lowerAscii = ascii "content-length" := by decide +kernel
  have f1 : ¬ (ascii "User-Agent").map lowerAscii = ascii "transfer-encoding" := by decide +kernel
  have f2 : ¬ (ascii "Host").map lowerAscii = ascii "transfer-encoding" := by decide +kernel
  have f3 : ¬ (ascii "Connection").map lowerAscii = ascii "transfer-encoding" := by decide +kernel
  have f4 : ¬ (ascii "Idempotency-Key").map lowerAscii = ascii "transfer-encoding" := by decide +kernel
  constructor <;>
  · unfold valuesOf documentedHeaders
    cases fl.testBit 1 <;> cases fl.testBit 0 <;> simp [List.filter_cons, e1, e2, e3, e4, f1, f2, f3, f4]

/-- A server that gets this message any number of times. -/
theorem performed_once {ms : List Message} (hms : ∀ m ∈ ms, m = postMsg cfg path host key order fl sendFl) :
    performed path ms = if ms = [] then [] else [(key, order)] := by
  have step0 : performStep path [] (postMsg cfg path host key order fl sendFl) = [(key, order)] := by
    unfold performStep postMsg
    rw [one_key]
    simp
  have step1 : performStep path [(key, order)] (postMsg cfg path host key order fl sendFl) = [(key, order)] := by
    unfold performStep postMsg
    rw [one_key]
    simp
  have many : ∀ ms : List Message, (∀ m ∈ ms, m = postMsg cfg path host key order fl sendFl) → ms.foldl (performStep path) [(key, order)] = [(key, order)] := by
    intro ms
    induction ms with
    | nil => intro _; rfl
    | cons m ms ih =>
      intro h
      rw [List.foldl_cons, h m (by simp), step1]
      exact ih fun m' h' => h m' (by simp [h'])
  cases ms with
  | nil => rfl
  | cons m ms =>
    rw [if_neg (by simp)]
    unfold performed
    rw [List.foldl_cons, hms m (by simp), step0]
    exact many ms fun m' h' => hms m' (by simp [h'])

theorem post_ops (hpa : path ≠ []) {cap : Nat}
    (hsize : cap + (requestBlock (requestLine (ascii "POST") path) (documentedHeaders cfg.userAgent host fl.toNat)).length < 2 ^ cfg.sizeBits)
    (hsize' : cap + key.length + 21 < 2 ^ cfg.sizeBits) : ∀ op ∈ postOps path host fl key, OpOk cfg cap op := by
  have hep : effectivePath (some path) = path := by
    unfold effectivePath
    cases path with
    | nil => exact absurd rfl hpa
    | cons x t => rfl
  intro op hop
  unfold postOps at hop
  rcases List.mem_cons.mp hop with rfl | hop
  · refine ⟨?_, trivial⟩
    show cap + (requestBlock (requestLine (ascii "POST") (effectivePath (some path))) (documentedHeaders cfg.userAgent host fl.toNat)).length < _
    rw [hep]; exact hsize
  · simp only [List.mem_cons, List.not_mem_nil, or_false] at hop
    subst hop
    refine ⟨?_, trivial⟩
    show cap + ((ascii "Idempotency-Key").length + key.length + 6) < _
    have h2 : (ascii "Idempotency-Key").length = 15 := by decide
    omega

/-- One call of the loop. -/
theorem post_call {a : Shot σ} {m m1 : Mem} {sts : List Status}
    (hset : Setup true httpParser cfg a.transport a.send a.recv h rb (some bb) order.length resp b m)
    (hpa : path ≠ []) (hclp : CleanValue path) (hfl : sendFl.toNat.testBit 0 = false)
    (hsize : h.bufferLen + (requestBlock (requestLine (ascii "POST") path) (documentedHeaders cfg.userAgent host fl.toNat)).length < 2 ^ cfg.sizeBits)
    (hsize' : h.bufferLen + key.length + 21 < 2 ^ cfg.sizeBits) (hall : sts.all (· == .success) = true)
    (e : runBuildOps cfg (put m bb order) h (postOps path host fl key) = .ok (sts, rh, m1)) (fuel : Nat) :
    CallPre true httpParser cfg a.transport a.send a.recv rh rb (some bb) order.length resp b m1 ∧ rh.bufferLen = h.bufferLen ∧ ReqIs false (headerBlock m1 rh) ∧
    (headerBlock m1 rh).length = (requestBlock (requestLine (ascii "POST") path) (documentedHeaders cfg.userAgent host fl.toNat)).length + key.length + 19 ∧
    readMessage (wireRequest m1 rh (some bb) order.length sendFl) = some (postMsg cfg path host key order fl sendFl, []) ∧
    ∃ res w', HTTPClient_Send httpParser cfg fuel (some a.transport) (some rh) (some bb) order.length (some resp) sendFl ⟨a.start, m1, []⟩ = (res, w') ∧
      (∀ f, res ≠ .fault f) ∧ (∀ m, Found [w'.log] m → m = postMsg cfg path host key order fl sendFl) ∧
      ∀ st orh oresp, res = .ok (st, orh, oresp) → ∃ rh' resp2, orh = some rh' ∧ oresp = some resp2 ∧ SetUp (withClock resp) resp2 ∧ rh'.pBuffer = some rb ∧
        rh'.bufferLen = h.bufferLen ∧ (∀ i, (w'.mem i).length = (m i).length) ∧
        ∀ hist : List Message, ¬ headersOnly resp.respOptionFlags → FlakyServer a.serves got rest a.send a.recv resp → a.Truthful path hist → got a.start = [] →
          st = .success → confirms resp2.statusCode → postMsg cfg path host key order fl sendFl ∈ hist := by
  have hroomB := (hset.bodyRoom bb rfl).1
  have hputl := put_length (m := m) (bb := bb) (piece := order) hroomB
  have hset0 : Setup true httpParser cfg a.transport a.send a.recv h rb (some bb) order.length resp b (put m bb order) :=
    { hset with
      reqRoom := by rw [hputl]; exact hset.reqRoom
      room := by rw [hputl]; exact hset.room
      bodyRoom := (fun b' hb' => by rw [hputl]; exact hset.bodyRoom b' hb') }
  have hep : effectivePath (some path) = path := by
    unfold effectivePath
    cases path with
    | nil => exact absurd rfl hpa
    | cons x t => rfl
  have hops := post_ops (cfg := cfg) (host := host) (fl := fl) (key := key) (cap := h.bufferLen) hpa hsize hsize'
  obtain ⟨_, _, _, e7, hlen7, _, _, _, hfr, _⟩ := runBuildOps_spec hset0.agent _ (put m bb order) h rb none hset0.reqBuf hset0.reqRoom hops
  rw [e] at e7
  cases e7
  have hone : ∀ st ∈ sts, st = .success := fun st hst => by simpa using List.all_eq_true.mp hall st hst
  have habs : Spec.absRun cfg.userAgent none ((postOps path host fl key).zip sts) =
      some (requestLine (ascii "POST") path, documentedHeaders cfg.userAgent host fl.toNat ++ [(ascii "Idempotency-Key", key)]) := by
    unfold postOps at hlen7 ⊢
    obtain ⟨s1, s2, rfl⟩ : ∃ s1 s2, sts = [s1, s2] := by
      match sts, hlen7 with
      | [s1, s2], _ => exact ⟨s1, s2, rfl⟩
    obtain rfl := hone s1 (by simp)
    obtain rfl := hone s2 (by simp)
    simp only [List.zip_cons_cons, List.zip_nil_right, Spec.absRun, Spec.absStep, Option.map_some, hep]
  obtain ⟨hp, hbl1, hB, hne, hcl, hbd⟩ := built hset0 hops e habs
  rw [put_body] at hbd
  have hlen1 : ∀ i, (m1 i).length = (m i).length := by
    intro i
    by_cases hi : i = rb
    · subst hi; rw [hfr.2.1, hputl]
    · rw [hfr.1 i hi, hputl]
  have hreq : ReqIs false (headerBlock m1 rh) := by
    show ¬ ascii "HEAD" <+: headerBlock m1 rh
    rw [hB]
    intro hpre
    unfold requestBlock requestLine at hpre
    have := List.prefix_iff_eq_take.mp hpre
    have h2 := congrArg (fun x : Bytes => x[0]?) this
    revert h2
    simp [ascii]
  have hq : (⟨ascii "POST", path, documentedHeaders cfg.userAgent host fl.toNat ++ [(ascii "Idempotency-Key", key)]⟩ : Described).Clean :=
    ⟨(show CleanValue (ascii "POST") by decide), hclp, hcl, hne⟩
  have hu := unframed_post (path := path) (key := key) cfg.userAgent host fl.toNat (ascii "POST")
  have hline : (⟨ascii "POST", path, documentedHeaders cfg.userAgent host fl.toNat ++ [(ascii "Idempotency-Key", key)]⟩ : Described).line = postLine path := by
    show ascii "POST" ++ ascii " " ++ path ++ ascii " HTTP/1.1" = _
    unfold postLine
    have e4 : ascii "POST" ++ ascii " " = ascii "POST " := by decide
    rw [e4]
  have hwire : readMessage (wireRequest m1 rh (some bb) order.length sendFl) = some (postMsg cfg path host key order fl sendFl, []) := by
    have hr := read_length (n := order.length) (fl := sendFl.toNat) hq hu hfl (bodyOf_length hp) []
    rw [List.append_nil, ← wire_described (n := order.length) (flags := sendFl) hq hB, hbd, hline] at hr
    unfold wireRequest
    rw [hbd]
    exact hr
  refine ⟨hp, hbl1, hreq, ?_, hwire, ?_⟩
  · have h5 : headerLines [(ascii "Idempotency-Key", key)] = headerLine (ascii "Idempotency-Key") key := by simp [headerLines]
    have hl15 : (ascii "Idempotency-Key").length = 15 := by decide
    rw [hB]
    unfold requestBlock
    rw [headerLines_append, h5]
    simp only [headerLine, List.length_append, List.length_cons, List.length_nil, crlf]
    omega
  obtain ⟨res, w', evs, e5, hl, hw⟩ := C115_whole (w := ⟨a.start, m1, []⟩) (q := ⟨ascii "POST", path, documentedHeaders cfg.userAgent host fl.toNat ++ [(ascii "Idempotency-Key", key)]⟩) (flags := sendFl) hp hB hq hu hfl fuel
  refine ⟨res, w', e5, ?_, ?_, ?_⟩
  · rintro f rfl
    obtain ⟨_, w2, e6, hnf, _⟩ := C60_safe (w := ⟨a.start, m1, []⟩) (flags := sendFl) hp fuel
    rw [e5] at e6
    cases e6
    exact hnf f rfl
  · rintro m' ⟨evs', hev, pre, rest', hpre, hm⟩
    rw [List.mem_singleton, hl, List.nil_append] at hev
    subst hev
    rcases hw pre hpre with h1 | ⟨_, h1⟩
    · rw [h1] at hm; cases hm
    · rw [h1, hbd, hline] at hm
      cases hm
      rfl
  · rintro st orh oresp rfl
    obtain ⟨rh', resp2, rfl, rfl, hsu2, hb2', hbl2, _, _, _⟩ := send_leaves (w := ⟨a.start, m1, []⟩) hp e5
    refine ⟨rh', resp2, rfl, rfl, hsu2, hb2', by rw [hbl2, hbl1], ?_, ?_⟩
    · intro i
      obtain ⟨_, w2, e6, _, _, h3, _⟩ := C60_safe (w := ⟨a.start, m1, []⟩) (flags := sendFl) hp fuel
      rw [e5] at e6
      cases e6
      rw [h3 i]; exact hlen1 i
    · intro hist hflag hSA htrue hgs hst hcode
      have hserves := fun x (hx : a.serves (wireRequest m1 rh (some bb) order.length sendFl) x) => htrue _ x _ hx hwire rfl
      obtain ⟨res, w3, evs, e7, hl5, h5⟩ := C90_exchange (w := ⟨a.start, m1, []⟩) (flags := sendFl) hp hreq hflag hSA hgs
        (fun x hx => (hserves x hx).imp fun r h => ⟨h.1, h.2.1⟩) fuel
      rw [e5] at e7
      cases e7
      rcases h5 _ _ resp2 rfl with ⟨_, h6, _⟩ | ⟨x, hx, _, h7⟩
      · exact absurd hst h6
      obtain ⟨r, ok, hxr, hd⟩ := hserves x hx
      rcases h7 r ok hxr with ⟨_, hrec, g⟩ | ⟨h6, _⟩
      case inr => exact absurd hst h6
      exact hd (by rw [← g.statusCode]; exact hcode)

/-- What the application must provide so that the request can be built, and its Content-Length added: a host, path, key and user agent without CR and LF, and room. -/
def PostFits (cfg : Cfg) (h : ReqHeaders) (path host key : Bytes) (fl : UInt32) : Prop :=
  host ≠ [] ∧ CleanValue host ∧ (fl.toNat.testBit 1 = false → CleanValue cfg.userAgent) ∧ key ≠ [] ∧ CleanValue key ∧
  (requestBlock (requestLine (ascii "POST") path) (documentedHeaders cfg.userAgent host fl.toNat)).length + key.length + 49 ≤ h.bufferLen

theorem build_post {m : Mem} (hua : cfg.userAgent ≠ []) (hbuf : HasBuf m h rb) (hpa : path ≠ []) (hfit : PostFits cfg h path host key fl)
    (hsize : h.bufferLen + (requestBlock (requestLine (ascii "POST") path) (documentedHeaders cfg.userAgent host fl.toNat)).length < 2 ^ cfg.sizeBits)
    (hsize' : h.bufferLen + key.length + 21 < 2 ^ cfg.sizeBits) :
    ∃ rh m1, runBuildOps cfg m h (postOps path host fl key) = .ok ([.success, .success], rh, m1) := by
  obtain ⟨hho, hclh, hcu, hke, hclk, hroom⟩ := hfit
  have hep : effectivePath (some path) = path := by
    unfold effectivePath
    cases path with
    | nil => exact absurd rfl hpa
    | cons x t => rfl
  have ho1 : OpOk cfg h.bufferLen (.init (some ⟨some (ascii "POST"), some path, some host, fl⟩)) := ⟨by
    show h.bufferLen + (requestBlock (requestLine (ascii "POST") (effectivePath (some path))) (documentedHeaders cfg.userAgent host fl.toNat)).length < _
    rw [hep]; omega, trivial⟩
  obtain ⟨st, h1, m1, e1, hiff, _⟩ := C02_init_success_iff (cfg := cfg) (m := m) (h := h) (b := rb) (me := ascii "POST") (ho := host) (path := some path) (flags := fl) hua hbuf
    (by decide) hho (by rw [hep]; omega)
  have hst : st = .success := hiff.2 ⟨by rw [hep]; omega, hclh, hcu⟩
  subst hst
  obtain ⟨sts, h1', m1', e, _, hb1, hbl1, _, _, ha⟩ := runBuildOps_spec hua [.init (some ⟨some (ascii "POST"), some path, some host, fl⟩)] m h rb none hbuf.1 hbuf.2
    (fun op hop => by simp only [List.mem_cons, List.not_mem_nil, or_false] at hop; rw [hop]; exact ho1)
  have e0 : runBuildOps cfg m h [.init (some ⟨some (ascii "POST"), some path, some host, fl⟩)] = .ok ([.success], h1, m1) := by
    simp only [runBuildOps, runBuildOp, e1]; rfl
  rw [e0] at e
  cases e
  obtain ⟨hB, _, _⟩ := ha (by simp) (requestLine (ascii "POST") (effectivePath (some path))) (documentedHeaders cfg.userAgent host fl.toNat) rfl
  rw [hep] at hB
  have hl15 : (ascii "Idempotency-Key").length = 15 := by decide
  have hstrip : (stripBlankLine (headerBlock m1 h1)).length + 2 =
      (requestBlock (requestLine (ascii "POST") path) (documentedHeaders cfg.userAgent host fl.toNat)).length := by
    rw [hB.eq]
    have hne : documentedHeaders cfg.userAgent host fl.toNat ≠ [] := by simp [documentedHeaders]
    unfold requestBlock
    rw [strip_crlf]
    · simp [crlf]; omega
    · obtain ⟨pre, p, hp⟩ : ∃ pre p, documentedHeaders cfg.userAgent host fl.toNat = pre ++ [p] :=
        ⟨_, _, (List.dropLast_concat_getLast hne).symm⟩
      rw [hp, headerLines_append, ← List.append_assoc]
      have : headerLines [p] = headerLine p.1 p.2 := by simp [headerLines]
      rw [this]
      exact crlf_suffix_headerLine _ _ _
  have hle1 := hB.le
  obtain ⟨st2, h2, m2, e2, _, hc2⟩ := C07_no_injection (cfg := cfg) (m := m1) (h := h1) (b := rb) (f := ascii "Idempotency-Key") (v := key)
    ⟨⟨hB.buf, hB.real⟩, hB.le, by decide, hke, by omega⟩
  have hst2 : st2 = .success := (hc2 (by rw [hbl1]; omega)).2.mpr ⟨(show CleanField (ascii "Idempotency-Key") by decide), hclk⟩
  subst hst2
  refine ⟨h2, m2, ?_⟩
  unfold postOps
  simp only [runBuildOps, runBuildOp, e1]
  show (HTTPClient_AddHeader cfg m1 (some h1) (some (ascii "Idempotency-Key")) (some key) >>= _) >>= _ = _
  rw [e2]
  rfl

theorem repeatUntil_cons (as : List (Shot σ)) (a : Shot σ) (logs : List (List (Ev PLog))) (fuel : Nat) {m m1 : Mem} {sts : List Status} {w' : World PLog σ}
    {res : Run (Status × Option ReqHeaders × Option (Resp σ))} (e : runBuildOps cfg (put m bb order) h (postOps path host fl key) = .ok (sts, rh, m1))
    (e5 : HTTPClient_Send httpParser cfg fuel (some a.transport) (some rh) (some bb) order.length (some resp) sendFl ⟨a.start, m1, []⟩ = (res, w')) :
    repeatUntil httpParser cfg fuel path host fl sendFl key order bb (a :: as) logs h resp m =
      if sts.all (· == .success) then
        match res with
        | .ok (st, some rh', some resp') =>
          if st = .success ∧ confirms resp'.statusCode then (.ok true, logs ++ [w'.log])
          else repeatUntil httpParser cfg fuel path host fl sendFl key order bb as (logs ++ [w'.log]) rh' resp' w'.mem
        | .ok _ => (.ok false, logs ++ [w'.log])
        | .fault f => (.fault f, logs ++ [w'.log])
        | .more => (.more, logs ++ [w'.log])
      else (.ok false, logs) := by
  rw [repeatUntil, e]
  dsimp only
  split
  · rw [e5]
    rcases res with ⟨st, _ | rh', _ | resp'⟩ | f | _ <;> rfl
  · rfl

/-- One attempt. -/
theorem post_step {a : Shot σ} {m : Mem}
    (hset : Setup true httpParser cfg a.transport a.send a.recv h rb (some bb) order.length resp b m)
    (hpa : path ≠ []) (hclp : CleanValue path) (hfl : sendFl.toNat.testBit 0 = false)
    (hsize : h.bufferLen + (requestBlock (requestLine (ascii "POST") path) (documentedHeaders cfg.userAgent host fl.toNat)).length < 2 ^ cfg.sizeBits)
    (hsize' : h.bufferLen + key.length + 21 < 2 ^ cfg.sizeBits) (fuel : Nat) :
    ((∀ as logs, repeatUntil httpParser cfg fuel path host fl sendFl key order bb (a :: as) logs h resp m = (.ok false, logs)) ∧ ¬ PostFits cfg h path host key fl) ∨
    ∃ evs, (∀ m, Found [evs] m → m = postMsg cfg path host key order fl sendFl) ∧
      (((∀ as logs, repeatUntil httpParser cfg fuel path host fl sendFl key order bb (a :: as) logs h resp m = (.more, logs ++ [evs])) ∧
          ¬ ShotsReturn cfg fuel order.length h resp [a]) ∨
       ((∀ as logs, repeatUntil httpParser cfg fuel path host fl sendFl key order bb (a :: as) logs h resp m = (.ok true, logs ++ [evs])) ∧
          (∀ hist : List Message, ¬ headersOnly resp.respOptionFlags → FlakyServer a.serves got rest a.send a.recv resp → a.Truthful path hist → got a.start = [] →
            postMsg cfg path host key order fl sendFl ∈ hist) ∧
          (¬ headersOnly resp.respOptionFlags → PostFits cfg h path host key fl → ShotsReturn cfg fuel order.length h resp [a] →
            ∀ hist : List Message, (∀ mm r, readMessage (accepted evs) = some (mm, r) → mm ∈ hist) → a.Prompt path hist got rest resp →
              postMsg cfg path host key order fl sendFl ∈ hist)) ∨
       ∃ rh2 resp2 m2, (∀ as logs, repeatUntil httpParser cfg fuel path host fl sendFl key order bb (a :: as) logs h resp m =
            repeatUntil httpParser cfg fuel path host fl sendFl key order bb as (logs ++ [evs]) rh2 resp2 m2) ∧
          SetUp (withClock resp) resp2 ∧ rh2.pBuffer = some rb ∧ rh2.bufferLen = h.bufferLen ∧ (∀ i, (m2 i).length = (m i).length) ∧
          (¬ headersOnly resp.respOptionFlags → PostFits cfg h path host key fl → ShotsReturn cfg fuel order.length h resp [a] →
            ∀ hist : List Message, (∀ mm r, readMessage (accepted evs) = some (mm, r) → mm ∈ hist) → ¬ a.Prompt path hist got rest resp)) := by
  have hroomB := (hset.bodyRoom bb rfl).1
  have hputl := put_length (m := m) (bb := bb) (piece := order) hroomB
  have hreq0 : (h.bufferLen ≤ ((put m bb order) rb).length) := by rw [hputl]; exact hset.reqRoom
  have hops := post_ops (cfg := cfg) (host := host) (fl := fl) (key := key) (cap := h.bufferLen) hpa hsize hsize'
  obtain ⟨sts, rh, m1, e, _⟩ := runBuildOps_spec hset.agent _ (put m bb order) h rb none hset.reqBuf hreq0 hops
  by_cases hall : sts.all (· == .success) = true
  case neg =>
    refine .inl ⟨fun as logs => ?_, fun hfit => ?_⟩
    · rw [repeatUntil, e]
      dsimp only
      rw [if_neg hall]
    · obtain ⟨rh', m1', e'⟩ := build_post (m := put m bb order) hset.agent ⟨hset.reqBuf, hreq0⟩ hpa hfit hsize hsize'
      rw [e] at e'
      cases e'
      exact hall (by decide)
  obtain ⟨hp, hbl1, hreq, hbl, hwire, res, w', e5, hnf, hfound, hafter⟩ := post_call (got := got) (rest := rest) hset hpa hclp hfl hsize hsize' hall e fuel
  have hcons := fun as logs => repeatUntil_cons as a logs fuel e e5
  refine .inr ⟨w'.log, hfound, ?_⟩
  rcases res with ⟨st, orh, oresp⟩ | f | _
  · obtain ⟨rh', resp2, rfl, rfl, hsu2, hb2', hbl2, hlen, htrue⟩ := hafter st orh oresp rfl
    have hgood : ¬ headersOnly resp.respOptionFlags → PostFits cfg h path host key fl → ShotsReturn cfg fuel order.length h resp [a] →
        ∀ hist : List Message, (∀ mm r, readMessage (accepted w'.log) = some (mm, r) → mm ∈ hist) → a.Prompt path hist got rest resp →
          st = .success ∧ confirms resp2.statusCode ∧ postMsg cfg path host key order fl sendFl ∈ hist := by
      rintro hflag hfit hret hist hplace ⟨hgs, serve, hS, hans⟩
      have hfu : h.bufferLen ≤ fuel ∧ resp.bufferLen < fuel ∧ order.length ≤ fuel := by
        rcases hret with ⟨f, now, r1, r2, r3, r4, r5, r6⟩ | ⟨r1, r2, r3, r4⟩
        · have q1 := Nat.le_mul_of_pos_right h.bufferLen (show 0 < cfg.sendTimeoutMs.toNat + 1 by omega)
          have q2 := Nat.le_mul_of_pos_right resp.bufferLen (show 0 < cfg.recvTimeoutMs.toNat + 2 by omega)
          have q3 := Nat.le_mul_of_pos_right order.length (show 0 < cfg.sendTimeoutMs.toNat + 1 by omega)
          omega
        · omega
      have hroom := hfit.2.2.2.2.2
      have hfit2 : (wireHeaders (headerBlock m1 rh) order.length sendFl.toNat).length ≤ rh.bufferLen := by
        have h2 := strip_length_le (headerBlock m1 rh)
        have hmax := hset.bodyMax
        have h3 : (decimal order.length).length ≤ 10 := decimal_length_le (k := 9) (by omega)
        have h4 : (ascii "Content-Length").length = 14 := by decide
        unfold wireHeaders
        split
        · simp only [headerLine, List.length_append, List.length_cons, List.length_nil, crlf]
          omega
        · omega
      have hP := server_peer hS (wireRequest m1 rh (some bb) order.length sendFl)
      obtain ⟨r, ok, hr, hrs, hd⟩ := hans _ _ hwire rfl
      rw [hr] at hP
      obtain ⟨rh3, resp3, w3, evs, e6, hl, _, _, hacc, _, g⟩ := C58_exchange (w := ⟨a.start, m1, []⟩) (flags := sendFl) hp ok hreq hflag hrs hfit2 hP hgs
        (fuel := fuel) (by omega) (by omega) hfu.2.1
      rw [e5] at e6
      cases e6
      rw [List.nil_append] at hl
      have hm := hplace _ _ (by rw [hl, hacc]; exact hwire)
      exact ⟨rfl, by rw [g.statusCode]; exact hd hm, hm⟩
    by_cases hok : st = .success ∧ confirms resp2.statusCode
    · refine .inr (.inl ⟨fun as logs => ?_, fun hist hflag hSA ht hgs => htrue hist hflag hSA ht hgs hok.1 hok.2,
        fun hflag hfit hret hist hplace hpr => (hgood hflag hfit hret hist hplace hpr).2.2⟩)
      rw [hcons, if_pos hall]
      dsimp only
      rw [if_pos hok]
    · refine .inr (.inr ⟨rh', resp2, w'.mem, fun as logs => ?_, hsu2, hb2', hbl2, hlen, ?_⟩)
      · rw [hcons, if_pos hall]
        dsimp only
        rw [if_neg hok]
      · intro hflag hfit hret hist hplace hpr
        obtain ⟨h1, h2, _⟩ := hgood hflag hfit hret hist hplace hpr
        exact hok ⟨h1, h2⟩
  · exact absurd rfl (hnf f)
  · refine .inl ⟨fun as logs => ?_, fun hret => ?_⟩
    · rw [hcons, if_pos hall]
    · have : (HTTPClient_Send httpParser cfg fuel (some a.transport) (some rh) (some bb) order.length (some resp) sendFl ⟨a.start, m1, []⟩).1 ≠ .more := by
        rcases hret with ⟨f, now, r1, r2, r3, r4, r5, r6⟩ | ⟨r1, r2, r3, r4⟩
        · obtain ⟨q1, q2⟩ := r3 a (by simp)
          exact C61_terminates (w := ⟨a.start, m1, []⟩) hp r1 r2 q1 q2 (by rw [hbl1]; exact r5) r4 r6
        · exact C61_terminates_noclock (w := ⟨a.start, m1, []⟩) hp r1 (by omega) (by omega) r3
      rw [e5] at this
      exact this rfl

theorem repeat_logs (fuel : Nat) : ∀ (as : List (Shot σ)) (logs : List (List (Ev PLog))) (h' : ReqHeaders) (resp' : Resp σ) (m' : Mem),
    logs <+: (repeatUntil httpParser cfg fuel path host fl sendFl key order bb as logs h' resp' m').2 := by
  intro as
  induction as with
  | nil => intro logs h' resp' m'; exact List.prefix_refl _
  | cons a as ih =>
    intro logs h' resp' m'
    have ih' : ∀ (evs : List (Ev PLog)) h' resp' m', logs <+: (repeatUntil httpParser cfg fuel path host fl sendFl key order bb as (logs ++ [evs]) h' resp' m').2 :=
      fun evs h' resp' m' => (List.prefix_append logs [evs]).trans (ih (logs ++ [evs]) h' resp' m')
    unfold repeatUntil
    repeat' split
    all_goals first | exact List.prefix_refl _ | exact List.prefix_append _ _ | exact ih' _ _ _ _

theorem shot_setup {a : Shot σ} {h2 : ReqHeaders} {resp2 : Resp σ} {m m2 : Mem} {n : Nat}
    (hs : Setup true httpParser cfg a.transport a.send a.recv h rb (some bb) n resp b m) (hsu : SetUp (withClock resp) resp2)
    (hb2 : h2.pBuffer = some rb) (hbl2 : h2.bufferLen = h.bufferLen) (hlen : ∀ i, (m2 i).length = (m i).length) :
    Setup true httpParser cfg a.transport a.send a.recv h2 rb (some bb) n resp2 b m2 := by
  obtain ⟨u1, u2, u3, u4, u5⟩ := hsu
  exact
  { hs with
    reqBuf := hb2
    reqRoom := by rw [hbl2, hlen]; exact hs.reqRoom
    reqSize := by rw [hbl2]; exact hs.reqSize
    buf := u1.trans hs.buf
    pos := by rw [u2]; exact hs.pos
    room := by rw [u2, hlen]; exact hs.room
    size := by rw [u2]; exact hs.size
    callback := by rw [u3]; exact hs.callback
    bodyRoom := (fun b' hb' => by rw [hlen]; exact hs.bodyRoom b' hb') }

theorem flaky_after {serves : Bytes → Bytes → Prop} {send : σ → Bytes → Int × σ} {recv : σ → Nat → Int × Bytes × σ} {resp2 : Resp σ}
    (q : FlakyServer serves got rest send recv resp) (hsu : SetUp (withClock resp) resp2) : FlakyServer serves got rest send recv resp2 := by
  obtain ⟨u1, u2, u3, u4, u5⟩ := hsu
  exact
  { q with
    clock := fun f hf => q.clock f (by
      rw [u4] at hf
      unfold withClock at hf
      dsimp only at hf
      cases hg : resp.getTime <;> rw [hg] at hf <;> first | exact hf | cases hf)
    header := fun c hc => q.header c (by rw [u3] at hc; exact hc) }

/-- The loop, safety. -/
theorem repeat_run {hist : List Message} (hpa : path ≠ []) (hclp : CleanValue path) (hfl : sendFl.toNat.testBit 0 = false)
    (hsize : h.bufferLen + (requestBlock (requestLine (ascii "POST") path) (documentedHeaders cfg.userAgent host fl.toNat)).length < 2 ^ cfg.sizeBits)
    (hsize' : h.bufferLen + key.length + 21 < 2 ^ cfg.sizeBits)
    (fuel : Nat) : ∀ (as : List (Shot σ)) (logs : List (List (Ev PLog))) (h' : ReqHeaders) (resp' : Resp σ) (m' : Mem), h'.bufferLen = h.bufferLen →
      (∀ m, Found logs m → m = postMsg cfg path host key order fl sendFl) →
      (∀ a ∈ as, Setup true httpParser cfg a.transport a.send a.recv h' rb (some bb) order.length resp' b m') →
      ∃ out logs', repeatUntil httpParser cfg fuel path host fl sendFl key order bb as logs h' resp' m' = (out, logs') ∧
        (out = .more ∨ ∃ c, out = .ok c) ∧ (∀ m, Found logs' m → m = postMsg cfg path host key order fl sendFl) ∧
        (¬ headersOnly resp'.respOptionFlags → (∀ a ∈ as, FlakyServer a.serves got rest a.send a.recv resp' ∧ a.Truthful path hist ∧ got a.start = []) →
          out = .ok true → postMsg cfg path host key order fl sendFl ∈ hist) := by
  intro as
  induction as with
  | nil => intro logs h' resp' m' _ hlogs _; exact ⟨_, _, rfl, .inr ⟨_, rfl⟩, hlogs, fun _ _ h => by cases h⟩
  | cons a as ih =>
    intro logs h' resp' m' hbl hlogs hset
    rcases post_step (got := got) (rest := rest) (fl := fl) (host := host) (key := key) (sendFl := sendFl) (path := path) (hset a (by simp)) hpa hclp hfl (by rw [hbl]; exact hsize) (by rw [hbl]; exact hsize') fuel with
      ⟨h1, _⟩ | ⟨evs, hf, h1⟩
    · exact ⟨_, _, h1 _ _, .inr ⟨_, rfl⟩, hlogs, fun _ _ h => by cases h⟩
    have hlogs' : ∀ m, Found (logs ++ [evs]) m → m = postMsg cfg path host key order fl sendFl := fun m hm => (found_append.mp hm).elim (hlogs m) (hf m)
    rcases h1 with ⟨h1, _⟩ | ⟨h1, h2, _⟩ | ⟨rh2, resp2, m2, h1, hsu, hb2, hbl2, hlen, _⟩
    · exact ⟨_, _, h1 _ _, .inl rfl, hlogs', fun _ _ h => by cases h⟩
    · exact ⟨_, _, h1 _ _, .inr ⟨_, rfl⟩, hlogs', fun hflag hS _ => h2 hist hflag (hS a (by simp)).1 (hS a (by simp)).2.1 (hS a (by simp)).2.2⟩
    · obtain ⟨out, logs', e, g1, g2, g3⟩ := ih (logs ++ [evs]) rh2 resp2 m2 (hbl2.trans hbl) hlogs' (fun p hp => shot_setup (hset p (by simp [hp])) hsu hb2 hbl2 hlen)
      refine ⟨out, logs', (h1 _ _).trans e, g1, g2, fun hflag hS => g3 ?_ ?_⟩
      · rw [hsu.2.2.2.2]; exact hflag
      · exact fun p hp => ⟨flaky_after (hS p (by simp [hp])).1 hsu, (hS p (by simp [hp])).2⟩

/-- **C118.** An application makes a POST request with a header Idempotency-Key, over one connection after another, until HTTPClient_Send returns HTTPSuccess with a status
code 2xx. Whatever fails, and when ever and how often the server processes the messages it has found (`hist`), those of given up connections much later: no call faults; the server
carries out nothing, or exactly the order of the application, once. If what the server says is true and the application has the confirmation, then
the order is carried out, exactly once. (`.more`: a call did not return within `fuel` steps.) -/
theorem C118_once {m : Mem} {shots : List (Shot σ)} (hset : ∀ a ∈ shots, Setup true httpParser cfg a.transport a.send a.recv h rb (some bb) order.length resp b m)
    (hpa : path ≠ []) (hclp : CleanValue path) (hfl : sendFl.toNat.testBit 0 = false)
    (hsize : h.bufferLen + (requestBlock (requestLine (ascii "POST") path) (documentedHeaders cfg.userAgent host fl.toNat)).length < 2 ^ cfg.sizeBits)
    (hsize' : h.bufferLen + key.length + 21 < 2 ^ cfg.sizeBits)
    (fuel : Nat) {out : Run Bool} {logs : List (List (Ev PLog))} (e : repeatUntil httpParser cfg fuel path host fl sendFl key order bb shots [] h resp m = (out, logs))
    {hist : List Message} (hhist : ∀ m ∈ hist, Found logs m) :
    (out = .more ∨ ∃ c, out = .ok c) ∧ (performed path hist = [] ∨ performed path hist = [(key, order)]) ∧
    (¬ headersOnly resp.respOptionFlags → (∀ a ∈ shots, FlakyServer a.serves got rest a.send a.recv resp ∧ a.Truthful path hist ∧ got a.start = []) →
      out = .ok true → performed path hist = [(key, order)]) := by
  obtain ⟨out', logs', e', h1, h2, h3⟩ := repeat_run (got := got) (rest := rest) (hist := hist) hpa hclp hfl hsize hsize' fuel shots [] h resp m rfl
    (fun m hm => by obtain ⟨_, h, _⟩ := hm; cases h) hset
  rw [e] at e'
  cases e'
  have hp := performed_once (ms := hist) (fun m hm => h2 m (hhist m hm))
  refine ⟨h1, ?_, fun hflag hS ho => ?_⟩
  · rw [hp]; split
    · exact .inl rfl
    · exact .inr rfl
  · rw [hp, if_neg (List.ne_nil_of_mem (h3 hflag hS ho))]

/-- The loop, with a reliable attempt to come. -/
theorem repeat_done {hist : List Message} (hpa : path ≠ []) (hclp : CleanValue path) (hfl : sendFl.toNat.testBit 0 = false) (fuel : Nat) :
    ∀ (tries : List (Shot σ × Bool)) (logs : List (List (Ev PLog))) (h' : ReqHeaders) (resp' : Resp σ) (m' : Mem) (out : Run Bool) (logs' : List (List (Ev PLog))),
      (∀ p ∈ tries, Setup true httpParser cfg p.1.transport p.1.send p.1.recv h' rb (some bb) order.length resp' b m') →
      ShotsReturn cfg fuel order.length h' resp' (tries.map (·.1)) → ¬ headersOnly resp'.respOptionFlags → PostFits cfg h' path host key fl →
      h'.bufferLen + (requestBlock (requestLine (ascii "POST") path) (documentedHeaders cfg.userAgent host fl.toNat)).length < 2 ^ cfg.sizeBits →
      h'.bufferLen + key.length + 21 < 2 ^ cfg.sizeBits →
      (∀ a, (a, true) ∈ tries → a.Prompt path hist got rest resp') →
      (∀ a, (a, false) ∈ tries → FlakyServer a.serves got rest a.send a.recv resp' ∧ a.Truthful path hist ∧ got a.start = []) →
      repeatUntil httpParser cfg fuel path host fl sendFl key order bb (tries.map (·.1)) logs h' resp' m' = (out, logs') →
      (∀ j a evs m r, tries[j]? = some (a, true) → logs'[logs.length + j]? = some evs → readMessage (accepted evs) = some (m, r) → m ∈ hist) →
      (∃ a, (a, true) ∈ tries) → out = .ok true ∧ postMsg cfg path host key order fl sendFl ∈ hist := by
  intro tries
  induction tries with
  | nil => intro logs h' resp' m' out logs' _ _ _ _ _ _ _ _ _ _ ⟨a, ha⟩; cases ha
  | cons p tries ih =>
    obtain ⟨a, o⟩ := p
    intro logs h' resp' m' out logs' hset hret hflag hfit hsize hsize' hgood hbad e hplace hex
    have hretA : ShotsReturn cfg fuel order.length h' resp' [a] := by
      rcases hret with ⟨f, now, r1, r2, r3, r4⟩ | r
      · exact .inl ⟨f, now, r1, r2, fun x hx => r3 x (by rw [List.mem_singleton] at hx; subst hx; simp), r4⟩
      · exact .inr r
    rw [List.map_cons] at e
    have hget : ∀ evs, (logs ++ [evs]) <+: logs' → logs'[logs.length]? = some evs := by
      rintro evs ⟨t, ht⟩
      rw [← ht]
      simp
    have hpl : ∀ evs, (logs ++ [evs]) <+: logs' → o = true → ∀ mm r, readMessage (accepted evs) = some (mm, r) → mm ∈ hist := by
      rintro evs hpre rfl mm r hr
      exact hplace 0 a evs mm r (by simp) (by rw [Nat.add_zero]; exact hget evs hpre) hr
    rcases post_step (got := got) (rest := rest) (fl := fl) (host := host) (key := key) (sendFl := sendFl) (path := path) (a := a) (hset (a, o) (by simp)) hpa hclp hfl hsize hsize' fuel with
      ⟨_, h1⟩ | ⟨evs, hf, h1⟩
    · exact absurd hfit h1
    rcases h1 with ⟨_, h1⟩ | ⟨h1, h2, h3⟩ | ⟨rh2, resp2, m2, h1, hsu, hb2, hbl2, hlen, h4⟩
    · exact absurd hretA h1
    · rw [h1] at e
      cases e
      refine ⟨rfl, ?_⟩
      cases o with
      | true => exact h3 hflag hfit hretA hist (hpl evs (List.prefix_refl _) rfl) (hgood a (by simp))
      | false =>
        obtain ⟨q1, q2, q3⟩ := hbad a (by simp)
        exact h2 hist hflag q1 q2 q3
    · rw [h1] at e
      have hpre := repeat_logs (cfg := cfg) (path := path) (host := host) (fl := fl) (sendFl := sendFl) (key := key) (order := order) (bb := bb) fuel (tries.map (·.1)) (logs ++ [evs]) rh2 resp2 m2
      rw [e] at hpre
      dsimp only at hpre
      have hex2 : ∃ a, (a, true) ∈ tries := by
        obtain ⟨a', ha'⟩ := hex
        rcases List.mem_cons.mp ha' with h | h
        · cases h
          exact absurd (hgood _ (by simp)) (h4 hflag hfit hretA hist (hpl evs hpre rfl))
        · exact ⟨a', h⟩
      refine ih (logs ++ [evs]) rh2 resp2 m2 out logs' (fun p hp => shot_setup (hset p (by simp [hp])) hsu hb2 hbl2 hlen) ?_ (by rw [hsu.2.2.2.2]; exact hflag)
        (by unfold PostFits; rw [hbl2]; exact hfit) (by rw [hbl2]; exact hsize) (by rw [hbl2]; exact hsize') ?_ ?_ e ?_ hex2
      · have u2' : resp2.bufferLen = resp'.bufferLen := hsu.2.1
        have u4 := hsu.2.2.2.1
        rcases hret with ⟨f, now, r1, r2, r3, r4, r5, r6⟩ | ⟨r1, r2, r3, r4⟩
        · refine .inl ⟨f, now, ?_, r2, fun x hx => r3 x (by simp only [List.map_cons, List.mem_cons]; exact .inr hx), r4, by rw [hbl2]; exact r5, by rw [u2']; exact r6⟩
          rw [u4]; unfold withClock; rw [r1]
        · refine .inr ⟨.inr ?_, by rw [hbl2]; exact r2, by rw [u2']; exact r3, r4⟩
          rw [u4]; unfold withClock; rcases r1 with r1 | r1 <;> rw [r1]
      · intro a' ha'
        obtain ⟨q2, serve, q3, q4⟩ := hgood a' (by simp [ha'])
        have u2' : resp2.bufferLen = resp'.bufferLen := hsu.2.1
        exact ⟨q2, serve, server_after q3 hsu, by rw [u2']; exact q4⟩
      · intro a' ha'
        obtain ⟨q1, q2⟩ := hbad a' (by simp [ha'])
        exact ⟨flaky_after q1 hsu, q2⟩
      · intro j a' evs' m r h1 h2 h3
        refine hplace (j + 1) a' evs' m r (by rw [List.getElem?_cons_succ]; exact h1) ?_ h3
        rw [← h2]
        congr 1
        rw [List.length_append, List.length_singleton]
        omega

/-- **C118.** Liveness. The request fits into the header buffer and the calls return (C61). Of the attempts, those with `true` are made on connections on which nothing fails, to a
server that processes the message (`hplace`) and confirms that; on the others anything may fail at any time. As soon as there is one of the
first kind, the application gets a confirmation, and the order has been carried out, exactly once. -/
theorem C118_done {m : Mem} {tries : List (Shot σ × Bool)} {hist : List Message}
    (hset : ∀ p ∈ tries, Setup true httpParser cfg p.1.transport p.1.send p.1.recv h rb (some bb) order.length resp b m)
    (hgood : ∀ a, (a, true) ∈ tries → a.Prompt path hist got rest resp)
    (hbad : ∀ a, (a, false) ∈ tries → FlakyServer a.serves got rest a.send a.recv resp ∧ a.Truthful path hist ∧ got a.start = [])
    {fuel : Nat} (hret : ShotsReturn cfg fuel order.length h resp (tries.map (·.1))) (hflag : ¬ headersOnly resp.respOptionFlags) (hfl : sendFl.toNat.testBit 0 = false)
    (hpa : path ≠ []) (hclp : CleanValue path) (hfit : PostFits cfg h path host key fl)
    (hsize : h.bufferLen + (requestBlock (requestLine (ascii "POST") path) (documentedHeaders cfg.userAgent host fl.toNat)).length < 2 ^ cfg.sizeBits)
    (hsize' : h.bufferLen + key.length + 21 < 2 ^ cfg.sizeBits)
    {out : Run Bool} {logs : List (List (Ev PLog))} (e : repeatUntil httpParser cfg fuel path host fl sendFl key order bb (tries.map (·.1)) [] h resp m = (out, logs))
    (hhist : ∀ m ∈ hist, Found logs m)
    (hplace : ∀ (j : Nat) (a : Shot σ) (evs : List (Ev PLog)) (m : Message) (r : Bytes), tries[j]? = some (a, true) → logs[j]? = some evs →
      readMessage (accepted evs) = some (m, r) → m ∈ hist)
    (hone : ∃ a, (a, true) ∈ tries) :
    out = .ok true ∧ performed path hist = [(key, order)] := by
  obtain ⟨_, _, e', _, h2, _⟩ := repeat_run (got := got) (rest := rest) (hist := hist) hpa hclp hfl hsize hsize' fuel (tries.map (·.1)) [] h resp m rfl
    (fun m hm => by obtain ⟨_, h, _⟩ := hm; cases h) (fun a ha => by obtain ⟨p, hp, rfl⟩ := List.mem_map.mp ha; exact hset p hp)
  rw [e] at e'
  cases e'
  obtain ⟨h3, h4⟩ := repeat_done hpa hclp hfl fuel tries [] h resp m out logs hset hret hflag hfit hsize hsize' hgood hbad e
    (fun j a evs m r h1 h2 h3 => hplace j a evs m r h1 (by rw [← h2]; congr 1; simp) h3) hone
  refine ⟨h3, ?_⟩
  rw [performed_once (ms := hist) (fun m hm => h2 m (hhist m hm)), if_neg (List.ne_nil_of_mem h4)]

/-! ### Non-vacuity: any key, any order, any history -/

/-- Done. -/
def orderDone : Response := ⟨.v11, 204, ascii "No Content", [], .none⟩
/-- Not now. -/
def orderBusy : Response := ⟨.v11, 503, ascii "Busy", [⟨ascii "content-length", ascii " ", ascii "0"⟩], .length []⟩

theorem orderDone_ok : orderDone.Ok false where
  code := by show 100 ≤ 204 ∧ 204 ≤ 999; decide
  reason := show ∀ c ∈ ascii "No Content", c ≠ 13 ∧ c ≠ 10 by decide +kernel
  fields := fun f hf => nomatch hf
  content := ⟨.inr ⟨.inr (.inl rfl), rfl, fun ⟨_, hf, _⟩ => nomatch hf⟩, .inl rfl⟩

theorem orderBusy_ok : orderBusy.Ok false where
  code := by show 100 ≤ 503 ∧ 503 ≤ 999; decide
  reason := show ∀ c ∈ ascii "Busy", c ≠ 13 ∧ c ≠ 10 by decide +kernel
  fields := fun f hf => by
    obtain rfl : f = ⟨ascii "content-length", ascii " ", ascii "0"⟩ := by simpa [orderBusy] using hf
    exact fieldOk_of (by decide +kernel)
  content := by
    have h6 : orderBusy.lengths = [⟨ascii "content-length", ascii " ", ascii "0"⟩] := by
      show List.filter _ [_] = _
      rw [List.filter_cons_of_pos (by rw [decide_eq_true_eq]; show (ascii "content-length").map lowerAscii = ascii "content-length"; decide +kernel)]
      rfl
    refine ⟨rfl, ⟨_, h6, by decide +kernel⟩, ?_, ?_⟩
    · decide
    · intro g hg
      obtain rfl : g = ⟨ascii "content-length", ascii " ", ascii "0"⟩ := by simpa [orderBusy] using hg
      show ¬ (ascii "content-length").map lowerAscii = ascii "transfer-encoding"; decide +kernel

theorem server_flaky {serve : Bytes → Bytes} {send : σ → Bytes → Int × σ} {recv : σ → Nat → Int × Bytes × σ} (hS : Server serve got rest send recv resp) :
    FlakyServer (fun q x => x = serve q) got rest send recv resp where
  takes := hS.takes
  answers := hS.answers
  delivers := by
    intro s len
    obtain ⟨h1, h2⟩ := hS.delivers s len
    rw [h1, Int.toNat_natCast, List.take_length]
    exact ⟨Nat.le_refl _, h2⟩
  clock := hS.clock
  header := hS.header

/-- A server that processes the messages `hist`. -/
def onceServe (hist : List Message) (q : Bytes) : Bytes :=
  match readMessage q with
  | some (m, []) => if m ∈ hist then orderDone.bytes else orderBusy.bytes
  | _ => []

/-- Accepts at most 20 bytes at a time. -/
def onceSend (hist : List Message) : FlakyEnv → Bytes → Int × FlakyEnv := fun s d =>
  (((min 20 d.length : Nat) : Int), s.1 + 1, s.2.1 ++ d.take 20, onceServe hist (s.2.1 ++ d.take 20), s.2.2.2)

/-- The same; fails when the number of send calls is used up. -/
def onceFlaky (hist : List Message) : FlakyEnv → Bytes → Int × FlakyEnv := fun s d =>
  if s.2.2.2.1 = 0 then (-1, s.1 + 1, s.2.1, onceServe hist s.2.1, 0, s.2.2.2.2)
  else (((min 20 d.length : Nat) : Int), s.1 + 1, s.2.1 ++ d.take 20, onceServe hist (s.2.1 ++ d.take 20), s.2.2.2.1 - 1, s.2.2.2.2)

/-- An attempt on a reliable connection, or on one that breaks after so many calls of send and of receive. -/
def exShot (hist : List Message) : Option (Nat × Nat) → Shot FlakyEnv × Bool
  | none => (⟨onceSend hist, steadyRecv, (0, [], [], 0, 0), fun q x => x = onceServe hist q⟩, true)
  | some (sends, recvs) => (⟨onceFlaky hist, flakyRecv, (0, [], [], sends, recvs), fun q x => x = onceServe hist q⟩, false)

theorem onceServer (hist : List Message) (q n : Nat) :
    Server (onceServe hist) (fun s => s.2.1) (fun s => s.2.2.1) (onceSend hist) steadyRecv (flakyResp q n) where
  accepts := by
    intro s d hd
    have : 0 < d.length := List.length_pos_iff.mpr hd
    unfold onceSend
    dsimp only
    omega
  takes := by
    intro s d
    unfold onceSend
    dsimp only
    congr 1
    rcases Nat.le_total 20 d.length with h | h
    · rw [Nat.min_eq_left h]; rfl
    · rw [Nat.min_eq_right h, List.take_of_length_le h, List.take_of_length_le (by omega)]
  answers := fun _ _ => rfl
  delivers := (steadyServer [] q n).delivers
  progress := (steadyServer [] q n).progress
  keeps := fun _ _ => rfl
  clock := by intro f hf s; cases hf; exact ⟨rfl, rfl⟩
  header := by intro c hc s a f b v code; cases hc; exact ⟨rfl, rfl⟩

theorem onceFlakyServer (hist : List Message) (q n : Nat) :
    FlakyServer (fun q x => x = onceServe hist q) (fun s => s.2.1) (fun s => s.2.2.1) (onceFlaky hist) flakyRecv (flakyResp q n) where
  takes := by
    intro s d
    unfold onceFlaky
    split
    · simp
    · dsimp only
      congr 1
      rcases Nat.le_total 20 d.length with h | h
      · rw [Nat.min_eq_left h]; rfl
      · rw [Nat.min_eq_right h, List.take_of_length_le h, List.take_of_length_le (by omega)]
  answers := by
    intro s d
    unfold onceFlaky
    split <;> rfl
  delivers := (flakyServer [] q n).delivers
  clock := (flakyServer [] q n).clock
  header := (flakyServer [] q n).header

theorem onceSetup (hist : List Message) (o : Option (Nat × Nat)) (k q n : Nat) (hk : k ≤ 5) (hq : q = 0 ∨ q = 1) (hn : 0 < n ∧ n ≤ 200) :
    Setup true httpParser exCfg (exShot hist o).1.transport (exShot hist o).1.send (exShot hist o).1.recv eHdr 0 (some 2) k (flakyResp q n) q xMem := by
  have hx := peerCallPre [] [] q hq
  cases o with
  | none =>
    exact
    { parser := hx.parser, hasSend := rfl, hasRecv := rfl
      sendOk := (fun s d => by show ((min 20 d.length : Nat) : Int) ≤ _; omega)
      recvOk := (fun s len => by
        unfold exShot steadyRecv
        exact ⟨by dsimp only; rw [List.length_take]; omega, by dsimp only; rw [List.length_take]; omega⟩)
      agent := by decide, reqBuf := rfl, reqRoom := by decide +kernel, reqSize := by decide
      buf := rfl, pos := hn.1, room := (Nat.le_trans hn.2 hx.room), size := (Nat.lt_of_le_of_lt hn.2 (by decide))
      callback := (fun h => nomatch h), bodyNone := (fun h => nomatch h)
      bodyRoom := (fun bb h => by cases h; exact ⟨Nat.le_trans hk (by decide +kernel), by decide⟩)
      bodyMax := by omega }
  | some p =>
    exact
    { parser := hx.parser, hasSend := rfl, hasRecv := rfl
      sendOk := (fun s d => by show (onceFlaky hist s d).1 ≤ _; unfold onceFlaky; split <;> dsimp only <;> omega)
      recvOk := (fun s len => by
        show (flakyRecv s len).1 ≤ _ ∧ _
        unfold exShot flakyRecv
        dsimp only
        split
        · exact ⟨by dsimp only; omega, by dsimp only; rw [List.length_take]; omega⟩
        · exact ⟨by dsimp only; omega, by dsimp only; rw [List.length_take]; omega⟩)
      agent := by decide, reqBuf := rfl, reqRoom := by decide +kernel, reqSize := by decide
      buf := rfl, pos := hn.1, room := (Nat.le_trans hn.2 hx.room), size := (Nat.lt_of_le_of_lt hn.2 (by decide))
      callback := (fun h => nomatch h), bodyNone := (fun h => nomatch h)
      bodyRoom := (fun bb h => by cases h; exact ⟨Nat.le_trans hk (by decide +kernel), by decide⟩), bodyMax := by omega }

theorem exShot_truthful (path : Bytes) (hist : List Message) (o : Option (Nat × Nat)) : (exShot hist o).1.Truthful path hist := by
  intro q x m hx hq _
  obtain rfl : x = onceServe hist q := by cases o <;> exact hx
  unfold onceServe
  rw [hq]
  dsimp only
  split
  · exact ⟨orderDone, orderDone_ok, rfl, fun _ => by assumption⟩
  · exact ⟨orderBusy, orderBusy_ok, rfl, fun h => absurd h (show ¬ confirms 503 by decide)⟩

theorem exShot_prompt (path : Bytes) (hist : List Message) (q : Nat) :
    (exShot hist none).1.Prompt path hist (fun s => s.2.1) (fun s => s.2.2.1) (flakyResp q 200) := by
  refine ⟨rfl, _, onceServer hist q 200, ?_⟩
  intro q' m hq _
  unfold onceServe
  rw [hq]
  dsimp only
  split
  · exact ⟨orderDone, orderDone_ok, rfl, show orderDone.bytes.length ≤ 200 by decide +kernel, fun _ => show confirms 204 by decide⟩
  · exact ⟨orderBusy, orderBusy_ok, rfl, show orderBusy.bytes.length ≤ 200 by decide +kernel, fun h => absurd h (by assumption)⟩

/-- Any key of up to 40 bytes, any order of up to 5, any attempts, any history that fits to them. -/
theorem C118_any_shots (key order : Bytes) (hkey : key ≠ [] ∧ CleanValue key ∧ key.length ≤ 40) (horder : order.length ≤ 5) (hist : List Message) (os : List (Option (Nat × Nat)))
    (q : Nat) (hq : q = 0 ∨ q = 1) {fuel : Nat} (hfuel : 10000 ≤ fuel) {out : Run Bool} {logs : List (List (Ev PLog))}
    (e : repeatUntil httpParser exCfg fuel (ascii "/order") (ascii "example.com") 1 0 key order 2 (os.map fun o => (exShot hist o).1) [] eHdr (flakyResp q 200) xMem = (out, logs))
    (hhist : ∀ m ∈ hist, Found logs m)
    (hplace : ∀ (j : Nat) (evs : List (Ev PLog)) (m : Message) (r : Bytes), os[j]? = some none → logs[j]? = some evs → readMessage (accepted evs) = some (m, r) → m ∈ hist) :
    (out = .more ∨ ∃ c, out = .ok c) ∧ (performed (ascii "/order") hist = [] ∨ performed (ascii "/order") hist = [(key, order)]) ∧
    (none ∈ os → out = .ok true) ∧ (out = .ok true → performed (ascii "/order") hist = [(key, order)]) := by
  have hset : ∀ o, Setup true httpParser exCfg (exShot hist o).1.transport (exShot hist o).1.send (exShot hist o).1.recv eHdr 0 (some 2) order.length (flakyResp q 200) q xMem :=
    fun o => onceSetup hist o _ q 200 horder hq (by decide)
  have hserver : ∀ o, FlakyServer (exShot hist o).1.serves (fun s => s.2.1) (fun s => s.2.2.1) (exShot hist o).1.send (exShot hist o).1.recv (flakyResp q 200) := by
    intro o
    cases o with
    | some p => exact onceFlakyServer hist q 200
    | none => exact server_flaky (onceServer hist q 200)
  have hstart : ∀ o, (fun s : FlakyEnv => s.2.1) (exShot hist o).1.start = [] := fun o => by cases o <;> rfl
  have hflag : ¬ headersOnly (flakyResp q 200).respOptionFlags := show ¬ ((0 : UInt32).toNat % 2 = 1) by decide
  have hs2 : eHdr.bufferLen + key.length + 21 < 2 ^ exCfg.sizeBits := Nat.lt_of_le_of_lt (Nat.add_le_add_right (Nat.add_le_add_left hkey.2.2 _) _) (by decide)
  obtain ⟨g1, g2, g3⟩ := C118_once (got := fun s : FlakyEnv => s.2.1) (rest := fun s => s.2.2.1) (rb := 0) (b := q) (hist := hist)
    (by intro a ha; obtain ⟨o, _, rfl⟩ := List.mem_map.mp ha; exact hset o) (by decide) (by decide) (by decide) (by decide +kernel) hs2 fuel e hhist
  refine ⟨g1, g2, fun hone => ?_, fun ho => g3 hflag ?_ ho⟩
  · refine (C118_done (got := fun s : FlakyEnv => s.2.1) (rest := fun s => s.2.2.1) (rb := 0) (b := q) (hist := hist) (bb := 2) (cfg := exCfg) (h := eHdr) (m := xMem) (resp := flakyResp q 200)
      (tries := os.map (exShot hist)) (path := ascii "/order") (host := ascii "example.com") (fl := 1) (sendFl := 0) (fuel := fuel) (logs := logs) (key := key) (order := order)
      (by intro p hp; obtain ⟨o, _, rfl⟩ := List.mem_map.mp hp; exact hset o) ?_ ?_ ?_ hflag (by decide) (by decide) (by decide) ?_ (by decide +kernel) hs2
      (by rw [List.map_map]; exact e) hhist ?_ ?_).1
    · intro a ha
      obtain ⟨o, _, ho⟩ := List.mem_map.mp ha
      cases o with
      | none => cases ho; exact exShot_prompt _ hist q
      | some p => exact nomatch (congrArg Prod.snd ho)
    · intro a ha
      obtain ⟨o, _, ho⟩ := List.mem_map.mp ha
      have h1 := congrArg Prod.fst ho
      dsimp only at h1
      subst h1
      exact ⟨hserver o, exShot_truthful _ hist o, hstart o⟩
    · refine .inl ⟨_, fun s => s.1, rfl, ⟨fun _ => rfl, fun _ => Nat.le_refl _⟩, ?_, ?_, ?_, ?_⟩
      · intro a ha
        obtain ⟨p, hp1, rfl⟩ := List.mem_map.mp ha
        obtain ⟨o, hp2, rfl⟩ := List.mem_map.mp hp1
        have hB : ∀ x : UInt32, x.toNat ≤ 1000 → 4294966296 ≤ 4294967296 - x.toNat := fun x h => by omega
        have h1 := hB exCfg.sendTimeoutMs (by decide)
        have h2 := hB exCfg.recvTimeoutMs (by decide)
        cases o with
        | none =>
          refine ⟨fun s d _ => ?_, fun s len _ => ?_⟩
          · show s.1 < s.1 + 1 ∧ s.1 + 1 < s.1 + _; omega
          · show s.1 < s.1 + 1 ∧ s.1 + 1 < s.1 + _; omega
        | some p =>
          refine ⟨fun s d h0 => ?_, fun s len h0 => ?_⟩
          · show s.1 < (onceFlaky _ s d).2.1 ∧ (onceFlaky _ s d).2.1 < _
            unfold onceFlaky
            split <;> dsimp only <;> omega
          · have h0 : (flakyRecv s len).1 = 0 := h0
            show s.1 < (flakyRecv s len).2.2.1 ∧ (flakyRecv s len).2.2.1 < _
            unfold flakyRecv at h0 ⊢
            split
            · rename_i hz; rw [if_pos hz] at h0; cases h0
            · dsimp only; omega
      · have h3 := Nat.mul_le_mul_right (exCfg.sendTimeoutMs.toNat + 1) horder
        have h4 : 5 * (exCfg.sendTimeoutMs.toNat + 1) + exCfg.sendTimeoutMs.toNat + 1 ≤ 10000 := by decide
        omega
      · exact Nat.le_trans (by decide) hfuel
      · exact Nat.le_trans (by show 200 * _ + _ + _ ≤ 10000; decide) hfuel
    · refine ⟨by decide, by decide, fun _ => by decide, hkey.1, hkey.2.1, ?_⟩
      have h3 : (requestBlock (requestLine (ascii "POST") (ascii "/order")) (documentedHeaders exCfg.userAgent (ascii "example.com") (1 : UInt32).toNat)).length + 40 + 49 ≤ eHdr.bufferLen := by
        decide +kernel
      have := hkey.2.2
      omega
    · intro j a evs m r h1 h2 h3
      refine hplace j evs m r ?_ h2 h3
      rw [List.getElem?_map] at h1
      cases hj : os[j]? with
      | none => rw [hj] at h1; cases h1
      | some o =>
        rw [hj] at h1
        cases o with
        | none => rfl
        | some p => exact nomatch (congrArg Prod.snd (Option.some.inj h1))
    · exact ⟨_, List.mem_map.mpr ⟨none, hone, rfl⟩⟩
  · intro a ha
    obtain ⟨o, _, rfl⟩ := List.mem_map.mp ha
    exact ⟨hserver o, exShot_truthful _ hist o, hstart o⟩

/-- The message. -/
def exOrder : Message := postMsg exCfg (ascii "/order") (ascii "example.com") (ascii "k-1") (ascii "go!") 1 0

/-- Three attempts: the connection breaks while the header is sent; the message arrives, but no response is received; a reliable connection. -/
def exOnceTries : List (Option (Nat × Nat)) := [some (3, 100), some (100, 0), none]

/-- The outcome, when the server processes the message three times, once for the second connection and twice for the third. -/
def exOnce : Run Bool × List (List (Ev PLog)) :=
  repeatUntil httpParser exCfg 10000 (ascii "/order") (ascii "example.com") 1 0 (ascii "k-1") (ascii "go!") 2 (exOnceTries.map fun o => (exShot [exOrder, exOrder, exOrder] o).1)
    [] eHdr (flakyResp 1 200) xMem

theorem exOnce_found : exOnce.2.map (fun evs => (readMessage (accepted evs)).map (·.1)) = [none, some exOrder, some exOrder] := by decide +kernel

/-- All hypotheses of C118 hold in this run. -/
example : exOnce.1 = .ok true ∧ performed (ascii "/order") [exOrder, exOrder, exOrder] = [(ascii "k-1", ascii "go!")] := by
  have hlen : exOnce.2.length = 3 := by
    have := congrArg List.length exOnce_found
    simpa using this
  have hat : ∀ (i : Nat) (evs : List (Ev PLog)), exOnce.2[i]? = some evs → some ((readMessage (accepted evs)).map (·.1)) = [none, some exOrder, some exOrder][i]? := by
    intro i evs h
    have h1 := congrArg (fun l : List (Option Message) => l[i]?) exOnce_found
    simp only [List.getElem?_map, h, Option.map_some] at h1
    exact h1
  have hfnd : ∀ m ∈ [exOrder, exOrder, exOrder], Found exOnce.2 m := by
    intro m hm
    obtain rfl : m = exOrder := by simpa using hm
    have h1 := hat 1 _ (List.getElem?_eq_getElem (by omega))
    have h1 := Option.some.inj h1
    cases hr : readMessage (accepted (exOnce.2[1]'(by omega))) with
    | none => rw [hr] at h1; cases h1
    | some p =>
      obtain ⟨m', r⟩ := p
      rw [hr] at h1
      have h5 : m' = exOrder := Option.some.inj h1
      subst h5
      exact ⟨_, List.getElem_mem (by omega), _, r, List.prefix_refl _, hr⟩
  have hpl : ∀ (j : Nat) (evs : List (Ev PLog)) (m : Message) (r : Bytes), exOnceTries[j]? = some none → exOnce.2[j]? = some evs →
      readMessage (accepted evs) = some (m, r) → m ∈ [exOrder, exOrder, exOrder] := by
    intro j evs m r h1 h2 h3
    have h4 := hat j evs h2
    rw [h3, Option.map_some] at h4
    have h5 : some m ∈ [none, some exOrder, some exOrder] := List.mem_of_getElem? h4.symm
    have h6 : m = exOrder := by simpa using h5
    rw [h6]; simp
  have hall := C118_any_shots (ascii "k-1") (ascii "go!") ⟨by decide, by decide, by decide⟩ (by decide) [exOrder, exOrder, exOrder] exOnceTries 1 (.inr rfl) (Nat.le_refl _)
    (out := exOnce.1) (logs := exOnce.2) (Prod.eta _).symm hfnd hpl
  exact ⟨hall.2.2.1 (by decide), hall.2.2.2 (hall.2.2.1 (by decide))⟩

end CoreHttp.Props

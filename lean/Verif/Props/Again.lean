import Verif.Spec.Again
import Verif.Props.Framing
import Verif.Props.ReceiveEx

/-!
# C112: sending a request again

The request object is left with the Content-Length line of the call (C20). What the server makes of the next one.
-/

namespace CoreHttp.Props
open CoreHttp Spec
variable {σ : Type} {strict : Bool} {P : Parser} {cfg : Cfg} {T : Transport σ} {send : σ → Bytes → Int × σ} {recv : σ → Nat → Int × Bytes × σ}
  {h rh : ReqHeaders} {rb b n n2 : Nat} {body body2 : Option Nat} {resp resp2 : Resp σ} {flags flags2 : UInt32}

theorem lengths_auto {n fl : Nat} : valuesOf "content-length" (autoLength n fl) = if addsContentLength n fl then [decimal n] else [] := by
  unfold autoLength
  split
  · unfold valuesOf
    rw [List.filter_cons_of_pos (by rw [lower_cl]; decide +kernel)]
    rfl
  · rfl

theorem encodings_auto {n fl : Nat} : valuesOf "transfer-encoding" (autoLength n fl) = [] := by
  unfold autoLength
  split
  · unfold valuesOf
    rw [List.filter_cons_of_neg (by rw [lower_cl]; decide +kernel)]
    rfl
  · rfl

theorem auto_clean {hs : List (Bytes × Bytes)} (hc : ∀ p ∈ hs, p.1 ≠ [] ∧ CleanField p.1 ∧ CleanValue p.2) (n fl : Nat) :
    ∀ p ∈ hs ++ autoLength n fl, p.1 ≠ [] ∧ CleanField p.1 ∧ CleanValue p.2 := by
  intro p hp
  rcases List.mem_append.mp hp with hp | hp
  · exact hc p hp
  · unfold autoLength at hp
    split at hp
    · simp only [List.mem_cons, List.not_mem_nil, or_false] at hp
      subst hp
      exact ⟨show ascii "Content-Length" ≠ [] by decide, show CleanField (ascii "Content-Length") by decide, clean_decimal n⟩
    · cases hp

theorem block_mono (line : Bytes) (hs ks : List (Bytes × Bytes)) : (requestBlock line hs).length ≤ (requestBlock line (hs ++ ks)).length := by
  unfold requestBlock
  simp [headerLines]

/-- The request of the second call, for the server: what was described, with the Content-Length line of the first call, and its own. -/
theorem again_sent {m m1 m2 : Mem} {ops : List BuildOp} {sts : List Status} {q : Described}
    (hset : Setup strict P cfg T send recv h rb body n resp b m) (hset2 : Setup strict P cfg T send recv h rb body2 n2 resp b m) (hne : b ≠ rb)
    (hops : ∀ op ∈ ops, OpOk cfg h.bufferLen op) (hbuild : runBuildOps cfg m h ops = .ok (sts, rh, m1))
    (habs : absRun cfg.userAgent none (ops.zip sts) = some (requestLine q.method q.path, q.headers)) (hm : CleanValue q.method) (hpa : CleanValue q.path)
    (hfit : (requestBlock (requestLine q.method q.path) (q.headers ++ autoLength n flags.toNat ++ autoLength n2 flags2.toNat)).length ≤ h.bufferLen)
    {s s2 : σ} {l l2 : List (Ev PLog)} {fuel fuel2 : Nat} {st st2 : Status} {rh1 : ReqHeaders} {resp1 : Resp σ} {orh : Option ReqHeaders}
    {oresp : Option (Resp σ)} {w1 w2 : World PLog σ} {evs2 : List (Ev PLog)}
    (e1 : HTTPClient_Send P cfg fuel (some T) (some rh) body n (some resp) flags ⟨s, m1, l⟩ = (.ok (st, some rh1, some resp1), w1))
    (step : AppStep true rh1 rh1 resp1 resp2 w1.mem m2)
    (e2 : HTTPClient_Send P cfg fuel2 (some T) (some rh1) body2 n2 (some resp2) flags2 ⟨s2, m2, l2⟩ = (.ok (st2, orh, oresp), w2))
    (hl2 : w2.log = l2 ++ evs2) (hst2 : st2 ≠ .networkError) :
    Described.Clean { q with headers := q.headers ++ autoLength n flags.toNat } ∧ (bodyOf m2 body2 n2).length = n2 ∧
    accepted evs2 = requestBlock (requestLine q.method q.path) (q.headers ++ autoLength n flags.toNat ++ autoLength n2 flags2.toNat) ++ bodyOf m2 body2 n2 := by
  obtain ⟨hp, hbl, hB, hsome, hcl, _⟩ := built hset hops hbuild habs
  obtain ⟨hp2, _, _, _, _, _⟩ := built hset2 hops hbuild habs
  have hq : q.Clean := ⟨hm, hpa, hcl, hsome⟩
  have hw := wire_described (n := n) (flags := flags) hq hB
  obtain ⟨rh1', resp1', r1, r2, r3, r4, r5, r6, r7, r8⟩ := send_leaves hp e1
  cases r1; cases r2
  obtain ⟨_, _, e3, _, _, s1, _⟩ := C60_safe (w := ⟨s, m1, l⟩) (flags := flags) hp fuel
  rw [e1] at e3; cases e3
  have hsz : ∀ i, (m2 i).length = (m1 i).length := fun i => (step.sizes i).trans (s1 i)
  have hp3 : CallPre strict P cfg T send recv rh1 rb body2 n2 resp2 b m2 :=
    callPre_mono hp2 hsz r4 r5 r6 r7 (step.respBuf.1.trans r3.1) (step.respBuf.2.trans r3.2.1) step.callback
  have hB1 : headerBlock m2 rh1 = requestBlock (requestLine q.method q.path) (q.headers ++ autoLength n flags.toNat) := by
    have : headerBlock m2 rh1 = headerBlock w1.mem rh1 := by
      unfold headerBlock; rw [r4]; dsimp only; rw [(step.keeps rfl).2 rb r4]
    rw [this, r8 hne]
    unfold blockAfter
    dsimp only
    rw [hw, hbl, if_pos (Nat.le_trans (block_mono _ _ _) hfit)]
  have hq1 : Described.Clean { q with headers := q.headers ++ autoLength n flags.toNat } :=
    ⟨hm, hpa, auto_clean hcl n _, fun h0 => hsome (List.append_eq_nil_iff.mp h0).1⟩
  have hw2 := wire_described (q := { q with headers := q.headers ++ autoLength n flags.toNat }) (n := n2) (flags := flags2) hq1 hB1
  have := ((send_accepts (w := ⟨s2, m2, l2⟩) hp3 e2 hl2).2 (by dsimp only; rw [hw2, r5, hbl]; exact hfit)).2 hst2
  refine ⟨hq1, bodyOf_length hp3, ?_⟩
  rw [this]
  unfold wireRequest
  dsimp only
  rw [hw2]

/-- **C112, partial.** When the first call has added no Content-Length line (no body, or HTTP_SEND_DISABLE_CONTENT_LENGTH_FLAG), whatever its status, the server reads
the second request as what was described, with the second body. (Missing: first calls that add one.) -/
theorem C112_again_partial {m m1 m2 : Mem} {ops : List BuildOp} {sts : List Status} {q : Described}
    (hset : Setup strict P cfg T send recv h rb body n resp b m) (hset2 : Setup strict P cfg T send recv h rb body2 n2 resp b m) (hne : b ≠ rb)
    (hops : ∀ op ∈ ops, OpOk cfg h.bufferLen op) (hbuild : runBuildOps cfg m h ops = .ok (sts, rh, m1))
    (habs : absRun cfg.userAgent none (ops.zip sts) = some (requestLine q.method q.path, q.headers)) (hm : CleanValue q.method) (hpa : CleanValue q.path)
    (hu : q.Unframed)
    (hfit : (requestBlock (requestLine q.method q.path) (q.headers ++ autoLength n flags.toNat ++ autoLength n2 flags2.toNat)).length ≤ h.bufferLen)
    {s s2 : σ} {l l2 : List (Ev PLog)} {fuel fuel2 : Nat} {st st2 : Status} {rh1 : ReqHeaders} {resp1 : Resp σ} {orh : Option ReqHeaders}
    {oresp : Option (Resp σ)} {w1 w2 : World PLog σ} {evs2 : List (Ev PLog)}
    (e1 : HTTPClient_Send P cfg fuel (some T) (some rh) body n (some resp) flags ⟨s, m1, l⟩ = (.ok (st, some rh1, some resp1), w1))
    (step : AppStep true rh1 rh1 resp1 resp2 w1.mem m2)
    (e2 : HTTPClient_Send P cfg fuel2 (some T) (some rh1) body2 n2 (some resp2) flags2 ⟨s2, m2, l2⟩ = (.ok (st2, orh, oresp), w2))
    (hl2 : w2.log = l2 ++ evs2) (hst2 : st2 ≠ .networkError) (later : Bytes)
    (h1 : addsContentLength n flags.toNat = false) (h2 : flags2.toNat.testBit 0 = false) :
    readMessage (accepted evs2 ++ later) = some (⟨q.line, q.headers ++ autoLength n2 flags2.toNat, bodyOf m2 body2 n2⟩, later) := by
  obtain ⟨hq, hbd, ha⟩ := again_sent hset hset2 hne hops hbuild habs hm hpa hfit e1 step e2 hl2 hst2
  have h0 : autoLength n flags.toNat = [] := by unfold autoLength; rw [h1]; rfl
  rw [ha, h0, List.append_nil]
  rw [h0, List.append_nil] at hq
  exact read_length hq hu h2 hbd later

/-- The server's view of the header section. -/
theorem again_read {q : Described} {n fl n2 fl2 : Nat} (hq : Described.Clean { q with headers := q.headers ++ autoLength n fl }) (rest : Bytes) :
    readRequest (requestBlock (requestLine q.method q.path) (q.headers ++ autoLength n fl ++ autoLength n2 fl2) ++ rest) =
      some (q.line, q.headers ++ autoLength n fl ++ autoLength n2 fl2, rest) :=
  wire_reads hq.method hq.path hq.headers rest n2 fl2

/-- **C112, what happens instead (1).** When both calls have a body with automatic Content-Length, a server that obeys RFC 9112 never understands the second
request, whatever the bodies (be they the same), whatever the status of the first call (e.g. HTTPNetworkError, when the request is sent again after a failure)
and whatever follows. -/
theorem C112_never_understood {m m1 m2 : Mem} {ops : List BuildOp} {sts : List Status} {q : Described}
    (hset : Setup strict P cfg T send recv h rb body n resp b m) (hset2 : Setup strict P cfg T send recv h rb body2 n2 resp b m) (hne : b ≠ rb)
    (hops : ∀ op ∈ ops, OpOk cfg h.bufferLen op) (hbuild : runBuildOps cfg m h ops = .ok (sts, rh, m1))
    (habs : absRun cfg.userAgent none (ops.zip sts) = some (requestLine q.method q.path, q.headers)) (hm : CleanValue q.method) (hpa : CleanValue q.path)
    (hu : q.Unframed)
    (hfit : (requestBlock (requestLine q.method q.path) (q.headers ++ autoLength n flags.toNat ++ autoLength n2 flags2.toNat)).length ≤ h.bufferLen)
    {s s2 : σ} {l l2 : List (Ev PLog)} {fuel fuel2 : Nat} {st st2 : Status} {rh1 : ReqHeaders} {resp1 : Resp σ} {orh : Option ReqHeaders}
    {oresp : Option (Resp σ)} {w1 w2 : World PLog σ} {evs2 : List (Ev PLog)}
    (e1 : HTTPClient_Send P cfg fuel (some T) (some rh) body n (some resp) flags ⟨s, m1, l⟩ = (.ok (st, some rh1, some resp1), w1))
    (step : AppStep true rh1 rh1 resp1 resp2 w1.mem m2)
    (e2 : HTTPClient_Send P cfg fuel2 (some T) (some rh1) body2 n2 (some resp2) flags2 ⟨s2, m2, l2⟩ = (.ok (st2, orh, oresp), w2))
    (hl2 : w2.log = l2 ++ evs2) (hst2 : st2 ≠ .networkError) (later : Bytes)
    (h1 : addsContentLength n flags.toNat = true) (h2 : addsContentLength n2 flags2.toNat = true) :
    readMessage (accepted evs2 ++ later) = none := by
  obtain ⟨hq, hbd, ha⟩ := again_sent hset hset2 hne hops hbuild habs hm hpa hfit e1 step e2 hl2 hst2
  unfold readMessage
  rw [ha, List.append_assoc, again_read hq]
  simp only [Option.bind_eq_bind, Option.bind_some]
  rw [valuesOf_append, valuesOf_append, valuesOf_append, valuesOf_append, hu.noLength, hu.noEncoding, lengths_auto, lengths_auto, encodings_auto, encodings_auto,
    if_pos h1, if_pos h2]
  rfl

/-- **C112, what happens instead (2).** When the second call has no body, the server takes as many bytes of what follows (the next request) for its body as the
first body had. -/
theorem C112_swallows {m m1 m2 : Mem} {ops : List BuildOp} {sts : List Status} {q : Described}
    (hset : Setup strict P cfg T send recv h rb body n resp b m) (hset2 : Setup strict P cfg T send recv h rb body2 n2 resp b m) (hne : b ≠ rb)
    (hops : ∀ op ∈ ops, OpOk cfg h.bufferLen op) (hbuild : runBuildOps cfg m h ops = .ok (sts, rh, m1))
    (habs : absRun cfg.userAgent none (ops.zip sts) = some (requestLine q.method q.path, q.headers)) (hm : CleanValue q.method) (hpa : CleanValue q.path)
    (hu : q.Unframed)
    (hfit : (requestBlock (requestLine q.method q.path) (q.headers ++ autoLength n flags.toNat ++ autoLength n2 flags2.toNat)).length ≤ h.bufferLen)
    {s s2 : σ} {l l2 : List (Ev PLog)} {fuel fuel2 : Nat} {st st2 : Status} {rh1 : ReqHeaders} {resp1 : Resp σ} {orh : Option ReqHeaders}
    {oresp : Option (Resp σ)} {w1 w2 : World PLog σ} {evs2 : List (Ev PLog)}
    (e1 : HTTPClient_Send P cfg fuel (some T) (some rh) body n (some resp) flags ⟨s, m1, l⟩ = (.ok (st, some rh1, some resp1), w1))
    (step : AppStep true rh1 rh1 resp1 resp2 w1.mem m2)
    (e2 : HTTPClient_Send P cfg fuel2 (some T) (some rh1) body2 n2 (some resp2) flags2 ⟨s2, m2, l2⟩ = (.ok (st2, orh, oresp), w2))
    (hl2 : w2.log = l2 ++ evs2) (hst2 : st2 ≠ .networkError) (later : Bytes)
    (h1 : addsContentLength n flags.toNat = true) (h2 : n2 = 0) :
    readMessage (accepted evs2 ++ later) = if later.length < n then none else
      some (⟨q.line, q.headers ++ autoLength n flags.toNat, later.take n⟩, later.drop n) := by
  obtain ⟨hq, hbd, ha⟩ := again_sent hset hset2 hne hops hbuild habs hm hpa hfit e1 step e2 hl2 hst2
  subst h2
  have h0 : autoLength 0 flags2.toNat = [] := by unfold autoLength addsContentLength; simp
  have hr := again_read (n2 := 0) (fl2 := flags2.toNat) hq later
  rw [h0, List.append_nil] at hr
  unfold readMessage
  rw [ha, List.length_eq_zero_iff.mp hbd, List.append_nil, h0, List.append_nil, hr]
  simp only [Option.bind_eq_bind, Option.bind_some]
  rw [valuesOf_append, valuesOf_append, hu.noLength, hu.noEncoding, lengths_auto, encodings_auto, if_pos h1]
  simp only [List.nil_append, readDecimal_decimal, Option.bind_some]

/-- **C112, what happens instead (3).** Lenient servers: one that goes by the last Content-Length line reads the request with its body; one that accepts repetitions
does so if the bodies have the same length, and else refuses it; one that goes by the first line, when the second body is the longer one, takes the rest of the
second body for the next request. -/
theorem C112_lenient {m m1 m2 : Mem} {ops : List BuildOp} {sts : List Status} {q : Described}
    (hset : Setup strict P cfg T send recv h rb body n resp b m) (hset2 : Setup strict P cfg T send recv h rb body2 n2 resp b m) (hne : b ≠ rb)
    (hops : ∀ op ∈ ops, OpOk cfg h.bufferLen op) (hbuild : runBuildOps cfg m h ops = .ok (sts, rh, m1))
    (habs : absRun cfg.userAgent none (ops.zip sts) = some (requestLine q.method q.path, q.headers)) (hm : CleanValue q.method) (hpa : CleanValue q.path)
    (hu : q.Unframed)
    (hfit : (requestBlock (requestLine q.method q.path) (q.headers ++ autoLength n flags.toNat ++ autoLength n2 flags2.toNat)).length ≤ h.bufferLen)
    {s s2 : σ} {l l2 : List (Ev PLog)} {fuel fuel2 : Nat} {st st2 : Status} {rh1 : ReqHeaders} {resp1 : Resp σ} {orh : Option ReqHeaders}
    {oresp : Option (Resp σ)} {w1 w2 : World PLog σ} {evs2 : List (Ev PLog)}
    (e1 : HTTPClient_Send P cfg fuel (some T) (some rh) body n (some resp) flags ⟨s, m1, l⟩ = (.ok (st, some rh1, some resp1), w1))
    (step : AppStep true rh1 rh1 resp1 resp2 w1.mem m2)
    (e2 : HTTPClient_Send P cfg fuel2 (some T) (some rh1) body2 n2 (some resp2) flags2 ⟨s2, m2, l2⟩ = (.ok (st2, orh, oresp), w2))
    (hl2 : w2.log = l2 ++ evs2) (hst2 : st2 ≠ .networkError) (later : Bytes)
    (h1 : addsContentLength n flags.toNat = true) (h2 : addsContentLength n2 flags2.toNat = true) :
    readMessageBy lastValue (accepted evs2 ++ later) =
      some (⟨q.line, q.headers ++ autoLength n flags.toNat ++ autoLength n2 flags2.toNat, bodyOf m2 body2 n2⟩, later) ∧
    readMessageBy agreedValue (accepted evs2 ++ later) =
      (if n = n2 then some (⟨q.line, q.headers ++ autoLength n flags.toNat ++ autoLength n2 flags2.toNat, bodyOf m2 body2 n2⟩, later) else none) ∧
    (n ≤ n2 → readMessageBy firstValue (accepted evs2 ++ later) =
      some (⟨q.line, q.headers ++ autoLength n flags.toNat ++ autoLength n2 flags2.toNat, (bodyOf m2 body2 n2).take n⟩, (bodyOf m2 body2 n2).drop n ++ later)) := by
  obtain ⟨hq, hbd, ha⟩ := again_sent hset hset2 hne hops hbuild habs hm hpa hfit e1 step e2 hl2 hst2
  have hv : valuesOf "content-length" (q.headers ++ autoLength n flags.toNat ++ autoLength n2 flags2.toNat) = [decimal n, decimal n2] := by
    rw [valuesOf_append, valuesOf_append, hu.noLength, lengths_auto, lengths_auto, if_pos h1, if_pos h2]; rfl
  unfold readMessageBy
  rw [ha, List.append_assoc, again_read hq]
  simp only [Option.bind_eq_bind, Option.bind_some]
  rw [hv]
  refine ⟨?_, ?_, fun hle => ?_⟩
  · simp only [lastValue, List.getLast?_cons_cons, List.getLast?_singleton, Option.bind_some, readDecimal_decimal]
    rw [if_neg (by rw [List.length_append]; omega)]
    rw [List.take_left' hbd, List.drop_left' hbd]
  · by_cases hn : n = n2
    · subst hn
      rw [if_pos rfl]
      simp only [agreedValue, List.mem_singleton, forall_eq, if_true, Option.bind_some, readDecimal_decimal]
      rw [if_neg (by rw [List.length_append]; omega)]
      rw [List.take_left' hbd, List.drop_left' hbd]
    · rw [if_neg hn]
      have hd : ¬ decimal n2 = decimal n := by
        intro h0
        have := congrArg readDecimal h0
        rw [readDecimal_decimal, readDecimal_decimal] at this
        exact hn (Option.some.inj this).symm
      simp only [agreedValue, List.mem_singleton, forall_eq, hd, if_false, Option.bind_none]
  · simp only [firstValue, List.head?_cons, Option.bind_some, readDecimal_decimal]
    rw [if_neg (by rw [List.length_append]; omega), List.take_append_of_le_length (by omega), List.drop_append_of_le_length (by omega)]

/-! ### Refutation, and non-vacuity -/

/-- A request is built and sent with the body "hello"; no response comes. Over a new connection it is sent again with the given body, and there is a response.
Statuses, and what the server gets in the second connection. -/
def sentAgain (flags : UInt32) (body2 : Option Nat) (n2 : Nat) : Option (Status × Status × Bytes) :=
  match runBuildOps exCfg xMem eHdr eOps with
  | .ok (_, rh, m1) =>
    match HTTPClient_Send Ref.httpParser exCfg 300 (some scriptT) (some rh) (some 2) 5 (some (exResp 200 0)) flags ⟨(0, []), m1, []⟩ with
    | (.ok (st1, some rh1, some rs), w1) =>
      match HTTPClient_Send Ref.httpParser exCfg 300 (some scriptT) (some rh1) body2 n2 (some rs) 0
        ⟨(0, [ascii "HTTP/1.1 200 OK\r\nContent-Length: 0\r\n\r\n"]), w1.mem, []⟩ with
      | (.ok (st2, _, _), w2) => some (st1, st2, accepted w2.log)
      | _ => none
    | _ => none
  | _ => none

def againHead : Bytes := ascii "PUT /x HTTP/1.1\r\nHost: host\r\nConnection: keep-alive\r\nA: 1\r\nRange: bytes=0-99\r\nContent-Length: 5\r\n"

/-- **C112 is false of the code.** The same request sent again with the same body after HTTPNoResponse has two Content-Length lines; sent without a body it still
announces five bytes, for which the server takes the start of the next request. -/
theorem C112_refuted :
    sentAgain 0 (some 2) 5 = some (.noResponse, .success, againHead ++ ascii "Content-Length: 5\r\n\r\nhello") ∧
    readMessage (againHead ++ ascii "Content-Length: 5\r\n\r\nhello") = none ∧
    sentAgain 0 none 0 = some (.noResponse, .success, againHead ++ ascii "\r\n") ∧
    (readMessage (againHead ++ ascii "\r\n" ++ ascii "GET / HTTP/1.1\r\nHost: h\r\n\r\n")).map (fun x => (x.1.body, x.2)) =
      some (ascii "GET /", ascii " HTTP/1.1\r\nHost: h\r\n\r\n") := by
  refine ⟨?_, ?_, ?_, ?_⟩ <;> decide +kernel

theorem sentAgain_spec {fl : UInt32} {body2 : Option Nat} {n2 : Nat} {st1 st2 : Status} {x : Bytes} (h : sentAgain fl body2 n2 = some (st1, st2, x)) :
    ∃ sts rh m1 rh1 rs w1 orh ors w2, runBuildOps exCfg xMem eHdr eOps = .ok (sts, rh, m1) ∧
      HTTPClient_Send Ref.httpParser exCfg 300 (some scriptT) (some rh) (some 2) 5 (some (exResp 200 0)) fl ⟨(0, []), m1, []⟩ = (.ok (st1, some rh1, some rs), w1) ∧
      HTTPClient_Send Ref.httpParser exCfg 300 (some scriptT) (some rh1) body2 n2 (some rs) 0
        ⟨(0, [ascii "HTTP/1.1 200 OK\r\nContent-Length: 0\r\n\r\n"]), w1.mem, []⟩ = (.ok (st2, orh, ors), w2) ∧ accepted w2.log = x := by
  unfold sentAgain at h
  split at h
  · rename_i sts rh m1 e0
    split at h
    · rename_i st rh1 rs w1 e1
      split at h
      · rename_i st' orh ors w2 e2
        simp only [Option.some.injEq, Prod.mk.injEq] at h
        obtain ⟨rfl, rfl, rfl⟩ := h
        exact ⟨sts, rh, m1, rh1, rs, w1, orh, ors, w2, e0, e1, e2, rfl⟩
      · cases h
    · cases h
  · cases h

theorem againSetup {body2 : Option Nat} {n2 : Nat} (hb : (body2, n2) = (some 2, 5) ∨ (body2, n2) = (none, 0)) :
    Setup true Ref.httpParser exCfg scriptT (fun s d => (d.length, s)) scriptRecv eHdr 0 body2 n2 (exResp 200 0) 1 xMem where
  parser := Ref.httpParser_ok
  hasSend := rfl
  sendOk := fun s d => by simp
  hasRecv := rfl
  recvOk := scriptRecv_ok
  agent := by decide
  reqBuf := rfl
  reqRoom := by decide +kernel
  reqSize := by decide
  buf := rfl
  pos := by decide
  room := by decide +kernel
  size := by decide
  callback := by simp [exResp, exCb]
  bodyNone := by rintro rfl; rcases hb with hb | hb <;> cases hb; rfl
  bodyRoom := by
    rintro bb rfl
    rcases hb with hb | hb <;> cases hb
    exact ⟨by decide, by decide⟩
  bodyMax := by rcases hb with hb | hb <;> cases hb <;> decide

theorem eOps_ok : ∀ op ∈ eOps, OpOk exCfg eHdr.bufferLen op := by
  intro op hop
  simp only [eOps, List.mem_cons, List.not_mem_nil, or_false] at hop
  rcases hop with rfl | rfl | rfl | rfl
  · exact ⟨by decide, trivial⟩
  · exact ⟨by decide, trivial⟩
  · exact ⟨by decide, trivial⟩
  · exact ⟨by decide, by decide, by decide⟩

/-- The described request. -/
def eQ : Described := ⟨ascii "PUT", ascii "/x", eHs⟩

/-- The hypotheses of `C112_never_understood` can be met. -/
example : ∃ x, sentAgain 0 (some 2) 5 = some (.noResponse, .success, x) ∧ ∀ later, readMessage (x ++ later) = none := by
  refine ⟨_, C112_refuted.1, fun later => ?_⟩
  obtain ⟨sts, rh, m1, rh1, rs, w1, orh, ors, w2, e0, e1, e2, e3⟩ := sentAgain_spec C112_refuted.1
  have hsts : sts = [.success, .success, .invalidParameter, .success] := by
    have : (match runBuildOps exCfg xMem eHdr eOps with | .ok x => x.1 | _ => []) = [.success, .success, .invalidParameter, .success] := by
      decide +kernel
    rw [e0] at this; exact this
  subst hsts
  have step : AppStep true rh1 rh1 rs rs w1.mem w1.mem := by
    obtain ⟨hp, _⟩ := built (againSetup (.inl rfl)) eOps_ok e0 (me := ascii "PUT") (path := ascii "/x") (hs := eHs) (by decide +kernel)
    obtain ⟨_, _, r1, r2, r3, r4, _, r6, r7, _⟩ := send_leaves hp e1
    cases r1; cases r2
    exact ⟨fun _ => rfl, ⟨rfl, rfl⟩, ⟨r6, r7⟩, ⟨rfl, rfl⟩, by rw [r3.2.2.1]; simp [exResp, exCb, withClock], fun _ => ⟨rfl, fun _ _ => rfl⟩⟩
  rw [← e3]
  exact C112_never_understood (q := eQ) (flags := 0) (flags2 := 0) (againSetup (.inl rfl)) (againSetup (.inl rfl)) (by decide) eOps_ok e0 (by decide +kernel)
    (by decide) (by decide) ⟨by decide +kernel, by decide +kernel⟩ (by decide +kernel) e1 step e2 rfl (by decide) later (by decide) (by decide)

/-- The hypotheses of `C112_swallows` can be met. -/
example : ∃ x, sentAgain 0 none 0 = some (.noResponse, .success, x) ∧ ∀ later : Bytes, 5 ≤ later.length →
    (readMessage (x ++ later)).map (fun y => (y.1.body, y.2)) = some (later.take 5, later.drop 5) := by
  refine ⟨_, C112_refuted.2.2.1, fun later hl => ?_⟩
  obtain ⟨sts, rh, m1, rh1, rs, w1, orh, ors, w2, e0, e1, e2, e3⟩ := sentAgain_spec C112_refuted.2.2.1
  have hsts : sts = [.success, .success, .invalidParameter, .success] := by
    have : (match runBuildOps exCfg xMem eHdr eOps with | .ok x => x.1 | _ => []) = [.success, .success, .invalidParameter, .success] := by
      decide +kernel
    rw [e0] at this; exact this
  subst hsts
  have step : AppStep true rh1 rh1 rs rs w1.mem w1.mem := by
    obtain ⟨hp, _⟩ := built (againSetup (.inl rfl)) eOps_ok e0 (me := ascii "PUT") (path := ascii "/x") (hs := eHs) (by decide +kernel)
    obtain ⟨_, _, r1, r2, r3, r4, _, r6, r7, _⟩ := send_leaves hp e1
    cases r1; cases r2
    exact ⟨fun _ => rfl, ⟨rfl, rfl⟩, ⟨r6, r7⟩, ⟨rfl, rfl⟩, by rw [r3.2.2.1]; simp [exResp, exCb, withClock], fun _ => ⟨rfl, fun _ _ => rfl⟩⟩
  rw [← e3, C112_swallows (q := eQ) (flags := 0) (flags2 := 0) (againSetup (.inl rfl)) (againSetup (.inr rfl)) (by decide) eOps_ok e0 (by decide +kernel)
    (by decide) (by decide) ⟨by decide +kernel, by decide +kernel⟩ (by decide +kernel) e1 step e2 (List.nil_append _).symm (by decide) later (by decide) rfl, if_neg (by omega)]
  rfl

/-- The hypotheses of `C112_again_partial` can be met: with HTTP_SEND_DISABLE_CONTENT_LENGTH_FLAG in the first call. -/
theorem sentAgain_disabled : sentAgain 1 (some 2) 5 = some (.noResponse, .success, againHead ++ ascii "\r\nhello") := by decide +kernel
example (later : Bytes) : (readMessage (againHead ++ ascii "\r\nhello" ++ later)).map (fun y => (y.1.body, y.2)) = some (ascii "hello", later) := by
  obtain ⟨sts, rh, m1, rh1, rs, w1, orh, ors, w2, e0, e1, e2, e3⟩ := sentAgain_spec sentAgain_disabled
  have hsts : sts = [.success, .success, .invalidParameter, .success] := by
    have : (match runBuildOps exCfg xMem eHdr eOps with | .ok x => x.1 | _ => []) = [.success, .success, .invalidParameter, .success] := by
      decide +kernel
    rw [e0] at this; exact this
  subst hsts
  have step : AppStep true rh1 rh1 rs rs w1.mem w1.mem := by
    obtain ⟨hp, _⟩ := built (againSetup (.inl rfl)) eOps_ok e0 (me := ascii "PUT") (path := ascii "/x") (hs := eHs) (by decide +kernel)
    obtain ⟨_, _, r1, r2, r3, r4, _, r6, r7, _⟩ := send_leaves hp e1
    cases r1; cases r2
    exact ⟨fun _ => rfl, ⟨rfl, rfl⟩, ⟨r6, r7⟩, ⟨rfl, rfl⟩, by rw [r3.2.2.1]; simp [exResp, exCb, withClock], fun _ => ⟨rfl, fun _ _ => rfl⟩⟩
  rw [← e3, C112_again_partial (q := eQ) (flags := 1) (flags2 := 0) (againSetup (.inl rfl)) (againSetup (.inl rfl)) (by decide) eOps_ok e0 (by decide +kernel)
    (by decide) (by decide) ⟨by decide +kernel, by decide +kernel⟩ (by decide +kernel) e1 step e2 (List.nil_append _).symm (by decide) later (by decide) (by decide)]
  have hb : bodyOf w1.mem (some 2) 5 = ascii "hello" := by
    obtain ⟨hp, _, _, _, _, hbd⟩ := built (againSetup (.inl rfl)) eOps_ok e0 (me := ascii "PUT") (path := ascii "/x") (hs := eHs) (by decide +kernel)
    obtain ⟨_, _, e4, _, hf, _⟩ := C60_safe (w := ⟨(0, []), m1, []⟩) (flags := 1) hp 300
    rw [e1] at e4; cases e4
    have : bodyOf w1.mem (some 2) 5 = bodyOf m1 (some 2) 5 := by
      unfold bodyOf; dsimp only; rw [hf 2 (by decide) (by decide)]
    rw [this, hbd]; decide +kernel
  rw [hb]; rfl

end CoreHttp.Props

import Verif.Spec.Framing
import Verif.Props.EndToEnd
import Verif.Props.Steps

/-! # C93-C95: the server finds the end of every request -/

namespace CoreHttp.Props
open CoreHttp Spec
variable {σ : Type} {P : Parser} {cfg : Cfg} {strict : Bool} {T : Transport σ} {send : σ → Bytes → Int × σ} {recv : σ → Nat → Int × Bytes × σ}
  {resp : Resp σ} {h rh : ReqHeaders} {b rb : Nat} {body : Option Nat} {n : Nat} {flags : UInt32}

theorem valuesOf_append (name : String) (hs ks : List (Bytes × Bytes)) : valuesOf name (hs ++ ks) = valuesOf name hs ++ valuesOf name ks := by
  unfold valuesOf; rw [List.filter_append, List.map_append]

theorem lower_cl : (ascii "Content-Length").map lowerAscii = ascii "content-length" := by decide +kernel

/-- A body delimited by the length the library adds. -/
theorem read_length {q : Described} (hc : q.Clean) (hu : q.Unframed) {n fl : Nat} (hfl : fl.testBit 0 = false) {data : Bytes} (hd : data.length = n)
    (later : Bytes) :
    readMessage (requestBlock (requestLine q.method q.path) (q.headers ++ autoLength n fl) ++ data ++ later) =
      some (⟨q.line, q.headers ++ autoLength n fl, data⟩, later) := by
  unfold readMessage
  rw [List.append_assoc, wire_reads hc.method hc.path hc.headers]
  simp only [Option.bind_eq_bind, Option.bind_some]
  rw [valuesOf_append, valuesOf_append, hu.noLength, hu.noEncoding]
  unfold autoLength addsContentLength
  rw [hfl]
  by_cases h0 : 0 < n
  · have e1 : valuesOf "transfer-encoding" [(ascii "Content-Length", decimal n)] = [] := by
      unfold valuesOf
      rw [List.filter_cons_of_neg (by rw [lower_cl]; decide +kernel)]
      rfl
    have e2 : valuesOf "content-length" [(ascii "Content-Length", decimal n)] = [decimal n] := by
      unfold valuesOf
      rw [List.filter_cons_of_pos (by rw [lower_cl]; decide +kernel)]
      rfl
    simp only [h0, decide_true, Bool.not_false, Bool.and_self, if_true, e1, e2, List.append_nil, List.nil_append, readDecimal_decimal, Option.bind_some]
    rw [if_neg (by rw [List.length_append]; omega)]
    subst hd
    simp [Described.line]
  · have e3 : n = 0 := by omega
    subst e3
    have : data = [] := List.length_eq_zero_iff.mp hd
    subst this
    simp [Described.line, valuesOf]

theorem readHexAux_append (c : UInt8) (d : Nat) (hd : hexDigit c = some d) : ∀ (s : Bytes) (acc n : Nat), readHexAux acc s = some n →
    readHexAux acc (s ++ [c]) = some (16 * n + d)
  | [], acc, n, h => by
    simp only [readHexAux, Option.some.injEq] at h
    subst h
    simp [readHexAux, hd]
  | x :: s, acc, n, h => by
    simp only [readHexAux, List.cons_append] at h ⊢
    cases hx : hexDigit x with
    | none => rw [hx] at h; cases h
    | some e => rw [hx] at h; exact readHexAux_append c d hd s _ n h

theorem readHex_hex {s : Bytes} {n : Nat} (h : Hex s n) : readHex s = some n ∧ s ≠ [] ∧ ∀ c ∈ s, c ≠ 13 ∧ c ≠ 59 := by
  have aux : readHexAux 0 s = some n ∧ s ≠ [] ∧ ∀ c ∈ s, c ≠ 13 ∧ c ≠ 59 := by
    induction h with
    | one c d hd =>
      refine ⟨by simp [readHexAux, hd], by simp, ?_⟩
      intro x hx
      simp only [List.mem_cons, List.not_mem_nil, or_false] at hx
      subst hx
      constructor
      · rintro rfl; exact absurd hd (by simp [hexDigit])
      · rintro rfl; exact absurd hd (by simp [hexDigit])
    | more s n c d _ hd ih =>
      refine ⟨readHexAux_append c d hd s 0 n ih.1, by simp, ?_⟩
      intro x hx
      rcases List.mem_append.mp hx with hx | hx
      · exact ih.2.2 x hx
      simp only [List.mem_cons, List.not_mem_nil, or_false] at hx
      subst hx
      constructor
      · rintro rfl; exact absurd hd (by simp [hexDigit])
      · rintro rfl; exact absurd hd (by simp [hexDigit])
  refine ⟨?_, aux.2⟩
  cases s with
  | nil => exact absurd rfl aux.2.1
  | cons c cs => exact aux.1

/-- The size line of a chunk. -/
theorem size_line {s e : Bytes} {n : Nat} (h : Hex s n) (he : ExtOk e) (rest : Bytes) :
    takeLine (s ++ e ++ crlf ++ rest) = some (s ++ e, rest) ∧ readHex ((s ++ e).takeWhile (· ≠ 59)) = some n := by
  obtain ⟨h1, _, h3⟩ := readHex_hex h
  constructor
  · apply takeLine_clean
    intro c hc
    rcases List.mem_append.mp hc with hc | hc
    · exact (h3 c hc).1
    · rcases he with rfl | ⟨t, rfl, ht⟩
      · cases hc
      · rcases List.mem_cons.mp hc with rfl | hc
        · decide
        · exact (ht c hc).1
  · have : (s ++ e).takeWhile (· ≠ 59) = s := by
      rw [List.takeWhile_append_of_pos (fun c hc => by simpa using (h3 c hc).2)]
      rcases he with rfl | ⟨t, rfl, ht⟩
      · simp
      · simp
    rw [this, h1]

theorem takeLine_blank (rest : Bytes) : takeLine (crlf ++ rest) = some ([], rest) := takeLine_clean [] rest (by simp)

/-- A chunked body is read as what the chunks hold. -/
theorem read_chunks {ls le : Bytes} (hls : Hex ls 0) (hle : ExtOk le) (later : Bytes) : ∀ (cs : List Chunk), (∀ c ∈ cs, ChunkOk c) → ∀ k, cs.length < k →
    readChunked k (chunkedBytes cs ls le ++ later) = some ((cs.map Chunk.data).flatten, later)
  | [], _, k, hk => by
    obtain ⟨k, rfl⟩ : ∃ j, k = j + 1 := ⟨k - 1, by omega⟩
    have e : chunkedBytes [] ls le ++ later = ls ++ le ++ crlf ++ (crlf ++ later) := by
      simp [chunkedBytes, Content.bytes, section_, List.append_assoc]
    obtain ⟨l1, l2⟩ := size_line hls hle (crlf ++ later)
    rw [e]
    unfold readChunked
    rw [l1]
    simp only [Option.bind_eq_bind, Option.bind_some]
    rw [l2]
    simp only [Option.bind_some, List.drop_zero, takeLine_blank]
    simp
  | c :: cs, hcs, k, hk => by
    obtain ⟨k, rfl⟩ : ∃ j, k = j + 1 := ⟨k - 1, by simp at hk; omega⟩
    have hc := hcs c List.mem_cons_self
    have e : chunkedBytes (c :: cs) ls le ++ later = c.size ++ c.ext ++ crlf ++ (c.data ++ (crlf ++ (chunkedBytes cs ls le ++ later))) := by
      simp [chunkedBytes, Content.bytes, Chunk.bytes, List.append_assoc]
    obtain ⟨l1, l2⟩ := size_line hc.size hc.ext (c.data ++ (crlf ++ (chunkedBytes cs ls le ++ later)))
    rw [e]
    unfold readChunked
    rw [l1]
    simp only [Option.bind_eq_bind, Option.bind_some]
    rw [l2]
    have hpos : c.data.length ≠ 0 := fun h => hc.nonempty (List.length_eq_zero_iff.mp h)
    simp only [Option.bind_some, List.drop_left, takeLine_blank, List.take_left]
    rw [if_neg (by simp), if_neg hpos, read_chunks hls hle later cs (fun x hx => hcs x (List.mem_cons_of_mem _ hx)) k (by simp at hk; omega)]
    simp

theorem chunked_long (cs : List Chunk) (ls le : Bytes) (later : Bytes) : cs.length < (chunkedBytes cs ls le ++ later).length + 1 := by
  have : ∀ l : List Chunk, l.length ≤ ((l.map Chunk.bytes).flatten).length := by
    intro l
    induction l with
    | nil => simp
    | cons c l ih =>
      simp only [List.map_cons, List.flatten_cons, List.length_append, List.length_cons]
      have : 1 ≤ c.bytes.length := by simp [Chunk.bytes, crlf]; omega
      omega
  have := this cs
  simp only [chunkedBytes, Content.bytes, List.length_append]
  omega

/-- A request with a chunked body. -/
theorem read_chunked {q : Described} (hc : q.Clean) (hno : valuesOf "content-length" q.headers = []) {v : Bytes}
    (hte : valuesOf "transfer-encoding" q.headers = [v]) (hv : v.map lowerAscii = ascii "chunked") {cs : List Chunk} {ls le : Bytes}
    (hcs : ∀ c ∈ cs, ChunkOk c) (hls : Hex ls 0) (hle : ExtOk le) (later : Bytes) :
    readMessage (q.block ++ chunkedBytes cs ls le ++ later) = some (⟨q.line, q.headers, (cs.map Chunk.data).flatten⟩, later) := by
  unfold readMessage Described.block
  have e := wire_reads hc.method hc.path hc.headers (chunkedBytes cs ls le ++ later) 0 0
  rw [show autoLength 0 0 = [] from rfl, List.append_nil] at e
  rw [List.append_assoc, e]
  simp only [Option.bind_eq_bind, Option.bind_some]
  rw [hno, hte]
  dsimp only
  rw [if_pos hv, read_chunks hls hle later cs hcs _ (chunked_long cs ls le later)]
  rfl

theorem bodyOf_length {m : Mem} (hp : CallPre strict P cfg T send recv rh rb body n resp b m) : (bodyOf m body n).length = n := by
  unfold bodyOf
  cases hb : body with
  | none => simp [hp.bodyNone hb]
  | some bb => have := (hp.bodyRoom bb hb).1; simp only [List.length_take]; omega

/-- What a call puts on the wire, when the request object holds a described request. -/
theorem wire_described {q : Described} (hc : q.Clean) {m : Mem} (hB : headerBlock m rh = q.block) :
    wireHeaders (headerBlock m rh) n flags.toNat = requestBlock (requestLine q.method q.path) (q.headers ++ autoLength n flags.toNat) := by
  rw [hB]; exact wireHeaders_block hc.some_ n flags.toNat

/-- **C93.** Build a request by any sequence of InitializeRequestHeaders, AddHeader and AddRangeHeader calls that leave the framing to the library (no
Content-Length or Transfer-Encoding header of their own) and send it with any body, without HTTP_SEND_DISABLE_CONTENT_LENGTH_FLAG. Unless the call returns
HTTPNetworkError, a server that reads what the transport accepted - followed by anything at all - finds exactly this request with exactly this body, and
finds its end exactly where the next request begins. -/
theorem C93_framing {m m1 : Mem} {ops : List BuildOp} {sts : List Status} {q : Described}
    (hset : Setup strict P cfg T send recv h rb body n resp b m) (hops : ∀ op ∈ ops, OpOk cfg h.bufferLen op)
    (hbuild : runBuildOps cfg m h ops = .ok (sts, rh, m1))
    (habs : absRun cfg.userAgent none (ops.zip sts) = some (requestLine q.method q.path, q.headers)) (hm : CleanValue q.method) (hpa : CleanValue q.path)
    (hu : q.Unframed) (hfl : flags.toNat.testBit 0 = false)
    (hfit : (requestBlock (requestLine q.method q.path) (q.headers ++ autoLength n flags.toNat)).length ≤ h.bufferLen)
    {s : σ} {l : List (Ev PLog)} {fuel : Nat} {st : Status} {orh : Option ReqHeaders} {oresp : Option (Resp σ)} {w' : World PLog σ} {evs : List (Ev PLog)}
    (e : HTTPClient_Send P cfg fuel (some T) (some rh) body n (some resp) flags ⟨s, m1, l⟩ = (.ok (st, orh, oresp), w')) (hl : w'.log = l ++ evs)
    (hst : st ≠ .networkError) (later : Bytes) :
    readMessage (accepted evs ++ later) = some (⟨q.line, q.headers ++ autoLength n flags.toNat, bodyOf m body n⟩, later) := by
  obtain ⟨hp, hbl, hB, hne, hcl, hbd⟩ := built hset hops hbuild habs
  have hq : q.Clean := ⟨hm, hpa, hcl, hne⟩
  have hw := wire_described (n := n) (flags := flags) hq hB
  have := ((send_accepts (w := ⟨s, m1, l⟩) hp e hl).2 (by dsimp only; rw [hw, hbl]; exact hfit)).2 hst
  unfold wireRequest at this
  dsimp only at this
  rw [this, hw, hbd]
  exact read_length hq hu hfl (by rw [← hbd]; exact bodyOf_length hp) later

/-- **C94, what is sent.** A request with the header "Transfer-Encoding: chunked" is sent with HTTPClient_SendHttpHeaders (no body length declared, or with
HTTP_SEND_DISABLE_CONTENT_LENGTH_FLAG), its body chunk by chunk with HTTPClient_SendHttpData, in any pieces and through any buffers. Unless the network fails,
a server that reads what the transport accepted - followed by anything - finds exactly this request, with the data of the chunks as its body, and its end. -/
theorem C94_chunked_sent {w : World PLog σ} {q : Described} {ps : List Piece} {cs : List Chunk} {ls le v : Bytes}
    (hp : CallPre strict P cfg T send recv rh rb none 0 resp b w.mem) (hc : resp.getTime ≠ .null) (hn : n ≤ 2147483647) (hps : PiecesOk w.mem rb ps)
    (hB : headerBlock w.mem rh = q.block) (hq : q.Clean) (hno : valuesOf "content-length" q.headers = [])
    (hte : valuesOf "transfer-encoding" q.headers = [v]) (hv : v.map lowerAscii = ascii "chunked") (hfl : addsContentLength n flags.toNat = false)
    (hcs : ∀ c ∈ cs, ChunkOk c) (hls : Hex ls 0) (hle : ExtOk le) (hpieces : piecesBytes ps = chunkedBytes cs ls le) (fuel : Nat) :
    ∃ r w' evs, exchangeInSteps P cfg fuel T rh n flags ps resp w = (r, w') ∧ w'.log = w.log ++ evs ∧
      accepted evs <+: q.block ++ chunkedBytes cs ls le ∧
      ∀ x, r = .ok x → x.1 ≠ .networkError → ∀ later,
        readMessage (accepted evs ++ later) = some (⟨q.line, q.headers, (cs.map Chunk.data).flatten⟩, later) := by
  have hw : wireHeaders (headerBlock w.mem rh) n flags.toNat = q.block := by unfold wireHeaders; rw [hfl, hB]; rfl
  have hle' : (headerBlock w.mem rh).length ≤ rh.bufferLen := by
    have h3 := hp.reqLe
    unfold headerBlock; rw [hp.reqBuf]; simp only [List.length_take]; omega
  rcases C70_pieces_sent (flags := flags) (n := n) hp hc hn hps fuel with ⟨h1, _⟩ | ⟨_, r, w', evs, e, hl, hpre, _, hall⟩
  · rw [hw, ← hB] at h1; omega
  · rw [hw, hpieces] at hpre
    refine ⟨r, w', evs, e, hl, hpre, fun x hx hne later => ?_⟩
    rw [hall x hx hne, hw, hpieces]
    exact read_chunked hq hno hte hv hcs hls hle later

/-- **C94, with a cooperative peer.** The server gets exactly this request, and the application exactly the server's response. -/
theorem C94_chunked_upload {w : World PLog σ} {q : Described} {ps : List Piece} {cs : List Chunk} {ls le v : Bytes} {head : Bool} {r : Response}
    {got rest : σ → Bytes}
    (hp : CallPre true Ref.httpParser cfg T send recv rh rb none 0 resp b w.mem) (hc : resp.getTime ≠ .null) (hn : n ≤ 2147483647)
    (hps : PiecesOk w.mem rb ps)
    (hB : headerBlock w.mem rh = q.block) (hq : q.Clean) (hno : valuesOf "content-length" q.headers = [])
    (hte : valuesOf "transfer-encoding" q.headers = [v]) (hv : v.map lowerAscii = ascii "chunked") (hfl : addsContentLength n flags.toNat = false)
    (hcs : ∀ c ∈ cs, ChunkOk c) (hls : Hex ls 0) (hle : ExtOk le) (hpieces : piecesBytes ps = chunkedBytes cs ls le)
    (ok : r.Ok head) (hreq : ReqIs head (headerBlock w.mem rh)) (hflag : ¬ headersOnly resp.respOptionFlags)
    (hfit : r.bytes.length ≤ resp.bufferLen)
    (hP : Peer (q.block ++ chunkedBytes cs ls le) r.bytes got rest send recv resp) (hgot : got w.env = [])
    {fuel : Nat} (hf1 : rh.bufferLen ≤ fuel) (hf2 : ∀ p ∈ ps, p.2.length ≤ fuel) (hf3 : resp.bufferLen < fuel) :
    ∃ rh' resp' w' evs, exchangeInSteps Ref.httpParser cfg fuel T rh n flags ps resp w = (.ok (.success, some rh', some resp'), w') ∧
      w'.log = w.log ++ evs ∧
      (∀ later, readMessage (got w'.env ++ later) = some (⟨q.line, q.headers, (cs.map Chunk.data).flatten⟩, later)) ∧ rest w'.env = [] ∧
      Got cfg r resp.pHeaderParsingCallback.isSome evs w'.mem resp' := by
  have hw : wireHeaders (headerBlock w.mem rh) n flags.toNat = q.block := by unfold wireHeaders; rw [hfl, hB]; rfl
  have hle' : (headerBlock w.mem rh).length ≤ rh.bufferLen := by
    have h3 := hp.reqLe
    unfold headerBlock; rw [hp.reqBuf]; simp only [List.length_take]; omega
  obtain ⟨rh', resp', w', evs, e, hl, g1, g2, _, _, g5⟩ := C70_exchange (flags := flags) (n := n) (ps := ps) hp hc hn hps ok hreq hflag hfit
    (by rw [hw, ← hB]; exact hle') (by rw [hw, hpieces]; exact hP) hgot hf1 hf2 hf3
  refine ⟨rh', resp', w', evs, e, hl, fun later => ?_, g2, g5⟩
  rw [g1, hw, hpieces]
  exact read_chunked hq hno hte hv hcs hls hle later

theorem readMessages_step {bs : Bytes} {m : Message} {rest : Bytes} (h : readMessage bs = some (m, rest)) (hne : bs ≠ []) (k : Nat) :
    readMessages (k + 1) bs = (readMessages k rest).map (m :: ·) := by
  cases bs with
  | nil => exact absurd rfl hne
  | cons c cs =>
    rw [readMessages, h]
    simp only [Option.bind_eq_bind, Option.bind_some]
    cases readMessages k rest <;> rfl

theorem readMessages_mono {bs : Bytes} : ∀ {k k' : Nat} {ms : List Message}, readMessages k bs = some ms → k ≤ k' → readMessages k' bs = some ms := by
  intro k
  induction k generalizing bs with
  | zero =>
    intro k' ms h _
    cases bs with
    | nil => cases k' <;> simpa [readMessages] using h
    | cons c cs => simp [readMessages] at h
  | succ k ih =>
    intro k' ms h hk
    obtain ⟨k', rfl⟩ : ∃ j, k' = j + 1 := ⟨k' - 1, by omega⟩
    cases bs with
    | nil => simpa [readMessages] using h
    | cons c cs =>
      rw [readMessages] at h ⊢
      simp only [Option.bind_eq_bind] at h ⊢
      cases hm : readMessage (c :: cs) with
      | none => rw [hm] at h; cases h
      | some x =>
        rw [hm] at h
        simp only [Option.bind_some] at h ⊢
        cases hr : readMessages k x.2 with
        | none => rw [hr] at h; cases h
        | some ms' => rw [hr] at h; rw [ih hr (by omega)]; exact h

/-- **C95.** Any number of requests sent over one connection, none of which fails with HTTPNetworkError, each described afresh and with any body: the server
reads the connection as exactly these requests with exactly these bodies, in order, and nothing else. (A request for whose Content-Length line there was no
room is not among them.) -/
theorem C95_connection {keep : Bool} {rh' : ReqHeaders} {resp' : Resp σ} {w w' : World PLog σ} {xs : List (Exchange σ)}
    (hs : Session P cfg T keep rh resp w xs rh' resp' w')
    (hp : ∀ x ∈ xs, CallPre strict P cfg T send recv rh rb x.body x.bodyLen resp b w.mem) (q : Exchange σ → Described)
    (hq : ∀ x ∈ xs, headerBlock x.before.mem x.req = (q x).block ∧ (q x).Clean ∧ (q x).Unframed)
    (hfl : ∀ x ∈ xs, x.flags.toNat.testBit 0 = false) (hst : ∀ x ∈ xs, x.status ≠ .networkError) :
    readMessages xs.length ((xs.map fun x => accepted x.events).flatten) =
      some ((xs.filter fits).map fun x =>
        ⟨(q x).line, (q x).headers ++ autoLength x.bodyLen x.flags.toNat, bodyOf x.before.mem x.body x.bodyLen⟩) := by
  have hall := C63_session hs hp
  clear hs hp
  induction xs with
  | nil => rfl
  | cons x xs ih =>
    obtain ⟨c1, c2, c3⟩ := hall x List.mem_cons_self
    obtain ⟨q1, q2, q3⟩ := hq x List.mem_cons_self
    have ih' := ih (fun y hy => hq y (List.mem_cons_of_mem _ hy)) (fun y hy => hfl y (List.mem_cons_of_mem _ hy))
      (fun y hy => hst y (List.mem_cons_of_mem _ hy)) (fun y hy => hall y (List.mem_cons_of_mem _ hy))
    have hw := wire_described (n := x.bodyLen) (flags := x.flags) q2 q1
    have hsend := send_accepts c1 c2 c3
    simp only [List.map_cons, List.flatten_cons, List.length_cons]
    by_cases hf : (wireHeaders (headerBlock x.before.mem x.req) x.bodyLen x.flags.toNat).length ≤ x.req.bufferLen
    · have ha := (hsend.2 hf).2 (hst x List.mem_cons_self)
      have hr := read_length q2 q3 (hfl x List.mem_cons_self) (bodyOf_length c1) ((xs.map fun x => accepted x.events).flatten)
      rw [← hw] at hr
      have ha' : accepted x.events = wireHeaders (headerBlock x.before.mem x.req) x.bodyLen x.flags.toNat ++ bodyOf x.before.mem x.body x.bodyLen := ha
      rw [← ha'] at hr
      rw [List.filter_cons_of_pos (by simp [fits, hf]), readMessages_step hr, ih']
      · rfl
      · intro h0
        have : accepted x.events = [] := (List.append_eq_nil_iff.mp h0).1
        rw [ha', hw] at this
        have h1 := congrArg List.length this
        simp [requestBlock, crlf] at h1
    · have ha := hsend.1 (by omega)
      rw [ha.2.1]
      rw [List.filter_cons_of_neg (by simp [fits, hf])]
      exact readMessages_mono ih' (by omega)

/-! ### Non-vacuity -/

/-- All hypotheses of C93 hold for the request of C64's example: two requests in one stream are told apart. -/
example (t : Nat) : ∃ sts rh m1 rh' resp' w' evs, runBuildOps exCfg xMem eHdr eOps = .ok (sts, rh, m1) ∧
    HTTPClient_Send Ref.httpParser exCfg 300 (some (peerT eWire exResponse.bytes)) (some rh) (some 2) 5 (some (peerResp 1)) 0 ⟨(t, [], []), m1, []⟩ =
      (.ok (.success, some rh', some resp'), w') ∧ w'.log = evs ∧
    ∀ later, readMessage (accepted evs ++ later) = some (⟨ascii "PUT /x HTTP/1.1",
      [(ascii "Host", ascii "host"), (ascii "Connection", ascii "keep-alive"), (ascii "A", ascii "1"), (ascii "Range", ascii "bytes=0-99"),
       (ascii "Content-Length", ascii "5")], ascii "hello"⟩, later) := by
  have hops : ∀ op ∈ eOps, OpOk exCfg eHdr.bufferLen op := by
    intro op hop
    simp only [eOps, List.mem_cons, List.not_mem_nil, or_false] at hop
    rcases hop with rfl | rfl | rfl | rfl
    · exact ⟨by decide, trivial⟩
    · exact ⟨by decide, trivial⟩
    · exact ⟨by decide, trivial⟩
    · exact ⟨by decide, by decide, by decide⟩
  obtain ⟨sts, rh, m1, e, _⟩ := C05_history (cfg := exCfg) (by decide) (m := xMem) (h := eHdr) (b := 0) (ops := eOps) ⟨rfl, by decide +kernel⟩ hops
  have hsts : sts = [.success, .success, .invalidParameter, .success] := by
    have : (match runBuildOps exCfg xMem eHdr eOps with | .ok x => x.1 | _ => []) = [.success, .success, .invalidParameter, .success] := by
      decide +kernel
    rw [e] at this; exact this
  have hx := peerCallPre eWire exResponse.bytes 1 (.inr rfl)
  have hset : Setup true Ref.httpParser exCfg (peerT eWire exResponse.bytes) (peerSend eWire exResponse.bytes) peerRecv eHdr 0 (some 2) 5 (peerResp 1) 1 xMem :=
    { parser := hx.parser, hasSend := hx.hasSend, sendOk := hx.sendOk, hasRecv := hx.hasRecv, recvOk := hx.recvOk, agent := by decide, reqBuf := rfl
      reqRoom := by decide +kernel
      reqSize := by decide
      buf := hx.buf, pos := hx.pos, room := hx.room, size := hx.size, callback := hx.callback, bodyNone := hx.bodyNone, bodyRoom := hx.bodyRoom, bodyMax := hx.bodyMax }
  obtain ⟨rh', resp', w', evs, e2, hl, _, _, _⟩ := C64_end_to_end (flags := 0) (fuel := 300) (me := ascii "PUT") (path := ascii "/x") (hs := eHs)
    (got := fun s : PeerEnv => s.2.1) (rest := fun s => s.2.2) (s := (t, [], [])) (l := []) hset hops e
    (by rw [hsts]; decide +kernel) (by decide) (by decide) (by decide +kernel) exResponse_ok (by decide +kernel)
    (show ¬ ((0 : UInt32).toNat % 2 = 1) by decide) (show exResponse.bytes.length ≤ 200 by decide +kernel) (peer_ok eWire _ 1) rfl (by decide) (by decide) (show 200 < 300 by decide)
  refine ⟨sts, rh, m1, rh', resp', w', evs, e, e2, by simpa using hl, fun later => ?_⟩
  have := C93_framing (q := ⟨ascii "PUT", ascii "/x", eHs⟩) (flags := 0) hset hops e (by rw [hsts]; decide +kernel) (show CleanValue (ascii "PUT") by decide)
    (show CleanValue (ascii "/x") by decide) ⟨by decide +kernel, by decide +kernel⟩ (by decide) (by decide +kernel) e2 hl (by decide) later
  rw [this]
  have k1 : (Described.line ⟨ascii "PUT", ascii "/x", eHs⟩) = ascii "PUT /x HTTP/1.1" := by decide +kernel
  have k2 : eHs ++ autoLength 5 (UInt32.toNat 0) = [(ascii "Host", ascii "host"), (ascii "Connection", ascii "keep-alive"), (ascii "A", ascii "1"), (ascii "Range", ascii "bytes=0-99"),
       (ascii "Content-Length", ascii "5")] := by decide +kernel
  have k3 : bodyOf xMem (some 2) 5 = ascii "hello" := by decide +kernel
  dsimp only
  rw [k1, k2, k3]

/-- Memory with this header block in the first 100 bytes of block 0, and a request object for it. -/
def fMem (blk : Bytes) : Mem := fun i => if i = 0 then blk ++ List.replicate (200 - blk.length) 0 else xMem i
/-- The request object. -/
def fReq (blk : Bytes) : ReqHeaders := ⟨some 0, 100, blk.length⟩

theorem fMem_len {blk : Bytes} (h : blk.length ≤ 100) (i : Nat) : (fMem blk i).length = (xMem i).length := by
  unfold fMem
  by_cases hi : i = 0
  · subst hi
    rw [if_pos rfl, List.length_append, List.length_replicate, show (xMem 0).length = 200 by decide +kernel]
    omega
  · rw [if_neg hi]

theorem fBlock {blk : Bytes} : headerBlock (fMem blk) (fReq blk) = blk := by
  simp [headerBlock, fMem, fReq]

theorem fPre (request answer : Bytes) {blk : Bytes} (h16 : 16 ≤ blk.length) (h100 : blk.length ≤ 100) {body : Option Nat} {n : Nat}
    (hbd : (body = none ∧ n = 0) ∨ (body = some 2 ∧ n = 5)) :
    CallPre true Ref.httpParser exCfg (peerT request answer) (peerSend request answer) peerRecv (fReq blk) 0 body n (peerResp 1) 1 (fMem blk) where
  parser := Ref.httpParser_ok
  hasSend := rfl
  sendOk := peerSend_ok request answer
  hasRecv := rfl
  recvOk := peerRecv_ok
  reqBuf := rfl
  reqRoom := by rw [fMem_len h100, show (xMem 0).length = 200 by decide +kernel]; show 100 ≤ 200; omega
  reqLen := h16
  reqLe := h100
  reqSize := by show 100 + 30 < 2 ^ exCfg.sizeBits; decide
  buf := rfl
  pos := by simp [peerResp]
  room := by rw [fMem_len h100, show (xMem 1).length = 200 by decide +kernel]; exact Nat.le_refl _
  size := by show 200 < 2 ^ exCfg.sizeBits; decide
  callback := by simp [peerResp]
  bodyNone := by intro h; rcases hbd with ⟨_, h2⟩ | ⟨h1, _⟩; exact h2; rw [h] at h1; cases h1
  bodyRoom := by
    intro bb h
    rcases hbd with ⟨h1, _⟩ | ⟨h1, h2⟩
    · rw [h1] at h; cases h
    · rw [h1] at h; cases h; subst h2
      exact ⟨by rw [fMem_len h100, show (xMem 2).length = 5 by decide +kernel]; omega, by decide⟩
  bodyMax := by rcases hbd with ⟨_, rfl⟩ | ⟨_, rfl⟩ <;> decide

/-- A request with a chunked body. -/
def uQ : Described := ⟨ascii "PUT", ascii "/", [(ascii "Host", ascii "h"), (ascii "Transfer-Encoding", ascii "Chunked")]⟩
/-- Its chunks. -/
def uChunks : List Chunk := [⟨ascii "3", [], ascii "abc"⟩, ⟨ascii "0B", ascii ";x=y", ascii "defghijklmn"⟩]
/-- The pieces in which the caller sends them: sizes, data and line ends do not coincide with the pieces; blocks 1 and 2 are used. -/
def uPieces : List Piece :=
  [(2, ascii "3\r\n"), (2, ascii "abc"), (1, ascii "\r\n0B;x=y\r\ndefghijklmn\r\n"), (2, ascii "0\r\n\r\n")]

/-- All hypotheses of C94 hold for it. -/
example (t : Nat) : ∃ rh' resp' w' evs,
    exchangeInSteps Ref.httpParser exCfg 300 (peerT (uQ.block ++ chunkedBytes uChunks (ascii "0") []) exResponse.bytes) (fReq uQ.block) 0 0 uPieces
      (peerResp 1) ⟨(t, [], []), fMem uQ.block, []⟩ = (.ok (.success, some rh', some resp'), w') ∧ w'.log = evs ∧
    (∀ later, readMessage (w'.env.2.1 ++ later) = some (⟨ascii "PUT / HTTP/1.1",
      [(ascii "Host", ascii "h"), (ascii "Transfer-Encoding", ascii "Chunked")], ascii "abcdefghijklmn"⟩, later)) ∧
    Got exCfg exResponse true evs w'.mem resp' := by
  have hl1 : uQ.block.length = 55 := by decide +kernel
  have hclean : uQ.Clean := ⟨by decide +kernel, by decide +kernel,
    (show ∀ p ∈ uQ.headers, p.1 ≠ [] ∧ CleanField p.1 ∧ CleanValue p.2 by
      intro p hp
      simp only [uQ, List.mem_cons, List.not_mem_nil, or_false] at hp
      rcases hp with rfl | rfl
      · exact ⟨by decide, by decide, by decide⟩
      · exact ⟨by decide, by decide, by decide⟩), by decide⟩
  obtain ⟨rh', resp', w', evs, e, hl, g1, g2, g3⟩ := C94_chunked_upload (w := (⟨(t, [], []), fMem uQ.block, []⟩ : World PLog PeerEnv)) (n := 0) (flags := 0)
    (ps := uPieces) (fuel := 300) (got := fun s : PeerEnv => s.2.1) (rest := fun s => s.2.2) (v := ascii "Chunked") (cs := uChunks) (ls := ascii "0") (le := [])
    (fPre (uQ.block ++ chunkedBytes uChunks (ascii "0") []) exResponse.bytes (blk := uQ.block) (by omega) (by omega) (.inl ⟨rfl, rfl⟩))
    (by simp [peerResp]) (by decide)
    (by
      intro p hp
      dsimp only
      rw [fMem_len (by omega)]
      simp only [uPieces, List.mem_cons, List.not_mem_nil, or_false] at hp
      rcases hp with rfl | rfl | rfl | rfl
      · exact ⟨by decide, show (ascii "3\r\n").length ≤ (xMem 2).length by decide +kernel⟩
      · exact ⟨by decide, show (ascii "abc").length ≤ (xMem 2).length by decide +kernel⟩
      · exact ⟨by decide, show (ascii "\r\n0B;x=y\r\ndefghijklmn\r\n").length ≤ (xMem 1).length by decide +kernel⟩
      · exact ⟨by decide, show (ascii "0\r\n\r\n").length ≤ (xMem 2).length by decide +kernel⟩)
    fBlock hclean (by decide +kernel) (by decide +kernel) (by decide +kernel) (by decide)
    (by
      intro c hc
      simp only [uChunks, List.mem_cons, List.not_mem_nil, or_false] at hc
      rcases hc with rfl | rfl
      · exact ⟨by decide, .one 51 3 rfl, .inl rfl⟩
      · exact ⟨by decide, .more [48] 0 66 11 (.one 48 0 rfl) rfl, .inr ⟨ascii "x=y", rfl, by decide +kernel⟩⟩)
    (.one 48 0 rfl) (.inl rfl) (by decide +kernel) exResponse_ok
    (show ¬ ascii "HEAD" <+: headerBlock (fMem uQ.block) (fReq uQ.block) by rw [fBlock]; decide +kernel)
    (show ¬ ((0 : UInt32).toNat % 2 = 1) by decide) (show exResponse.bytes.length ≤ 200 by decide +kernel) (peer_ok _ _ 1) rfl
    (show 100 ≤ 300 by decide) (by decide +kernel) (show 200 < 300 by decide)
  refine ⟨rh', resp', w', evs, e, by simpa using hl, fun later => ?_, g3⟩
  have k1 : uQ.line = ascii "PUT / HTTP/1.1" := by decide +kernel
  have k2 : (uChunks.map Chunk.data).flatten = ascii "abcdefghijklmn" := by decide +kernel
  have := g1 later
  rw [k1, k2] at this
  exact this

/-- A request with a body of 5 bytes, described twice. -/
def vQ : Described := ⟨ascii "PUT", ascii "/", [(ascii "Host", ascii "h")]⟩

/-- A connection with two requests: all hypotheses of C95 hold, and the server reads both. -/
example (t t' : Nat) : ∃ rh' resp' w' x y,
    Session Ref.httpParser exCfg (peerT (wireRequest (fMem vQ.block) (fReq vQ.block) (some 2) 5 0) exResponse.bytes) false (fReq vQ.block) (peerResp 1)
      ⟨(t, [], []), fMem vQ.block, []⟩ [x, y] rh' resp' w' ∧
    readMessages 2 (accepted x.events ++ (accepted y.events ++ [])) =
      some [⟨ascii "PUT / HTTP/1.1", [(ascii "Host", ascii "h"), (ascii "Content-Length", ascii "5")], ascii "hello"⟩,
        ⟨ascii "PUT / HTTP/1.1", [(ascii "Host", ascii "h"), (ascii "Content-Length", ascii "5")], ascii "hello"⟩] := by
  have hl1 : vQ.block.length = 27 := by decide +kernel
  have hclean : vQ.Clean := ⟨by decide +kernel, by decide +kernel,
    (show ∀ p ∈ vQ.headers, p.1 ≠ [] ∧ CleanField p.1 ∧ CleanValue p.2 by
      intro p hp
      simp only [vQ, List.mem_cons, List.not_mem_nil, or_false] at hp
      subst hp
      exact ⟨by decide, by decide, by decide⟩), by decide⟩
  have hpre := fPre (wireRequest (fMem vQ.block) (fReq vQ.block) (some 2) 5 0) exResponse.bytes (blk := vQ.block) (by omega) (by omega) (.inr ⟨rfl, rfl⟩)
  have hwl : (wireHeaders (headerBlock (fMem vQ.block) (fReq vQ.block)) 5 (UInt32.toNat 0)).length ≤ 100 := by rw [fBlock]; decide +kernel
  have run : ∀ (w : World PLog PeerEnv) (resp : Resp PeerEnv), w.mem = fMem vQ.block → w.env.2 = ([], []) →
      CallPre true Ref.httpParser exCfg (peerT (wireRequest (fMem vQ.block) (fReq vQ.block) (some 2) 5 0) exResponse.bytes)
        (peerSend (wireRequest (fMem vQ.block) (fReq vQ.block) (some 2) 5 0) exResponse.bytes) peerRecv (fReq vQ.block) 0 (some 2) 5 resp 1 (fMem vQ.block) →
      SetUp (peerResp 1) resp →
      ∃ rh' resp' w' evs, HTTPClient_Send Ref.httpParser exCfg 300 (some (peerT (wireRequest (fMem vQ.block) (fReq vQ.block) (some 2) 5 0) exResponse.bytes))
        (some (fReq vQ.block)) (some 2) 5 (some resp) 0 w = (.ok (.success, some rh', some resp'), w') ∧ w'.log = w.log ++ evs := by
    intro w resp hm he hp hset
    obtain ⟨env, mem, log⟩ := w
    obtain ⟨pb, bl, cb, gt, a1, a2, a3, a4, a5, a6, a7, a8, fl, a9⟩ := resp
    obtain ⟨h1, h2, h3, h4, h5⟩ := hset
    dsimp only at hm he h1 h2 h3 h4 h5
    subst hm h1 h2 h3 h4 h5
    have hP := peer_ok (wireRequest (fMem vQ.block) (fReq vQ.block) (some 2) 5 0) exResponse.bytes 1
    obtain ⟨rh', resp', w', evs, e, hl, _, _, _, _, h6⟩ := C58_exchange (w := (⟨env, fMem vQ.block, log⟩ : World PLog PeerEnv))
      (flags := 0) (fuel := 300) (got := fun s => s.2.1) (rest := fun s => s.2.2) hp exResponse_ok
      (show ¬ ascii "HEAD" <+: headerBlock (fMem vQ.block) (fReq vQ.block) by rw [fBlock]; decide +kernel)
      (show ¬ ((0 : UInt32).toNat % 2 = 1) by decide) (show exResponse.bytes.length ≤ 200 by decide +kernel) hwl
      ({ hP with clock := hP.clock, header := hP.header }) (show (fun s : PeerEnv => s.2.1) env = [] by simp [he]) (show 100 ≤ 300 by decide) (by decide)
      (show 200 < 300 by decide)
    exact ⟨rh', resp', w', evs, e, hl⟩
  obtain ⟨rh1, resp1, w1, evs1, e1, l1⟩ := run ⟨(t, [], []), fMem vQ.block, []⟩ (peerResp 1) rfl rfl hpre ⟨rfl, rfl, rfl, rfl, rfl⟩
  obtain ⟨rh1', resp1', r1, r2, r3, r4, r5, r6, r7, _⟩ := send_leaves (w := ⟨(t, [], []), fMem vQ.block, []⟩) hpre e1
  cases r1; cases r2
  obtain ⟨_, _, e1', _, _, s1, _⟩ := C60_safe (w := ⟨(t, [], []), fMem vQ.block, []⟩) (flags := 0) hpre 300
  rw [e1] at e1'; cases e1'
  have hset : SetUp (peerResp 1) resp1 := r3
  have hcb : resp1.pHeaderParsingCallback ≠ some .null := by rw [hset.2.2.1]; exact hpre.callback
  have hpre2 := callPre_mono (m' := fMem vQ.block) (rh' := fReq vQ.block) hpre (fun _ => rfl) rfl rfl hpre.reqLen hpre.reqLe hset.1 hset.2.1 hcb
  obtain ⟨rh2, resp2, w2, evs2, e2, l2⟩ := run ⟨(t', [], []), fMem vQ.block, w1.log⟩ resp1 rfl rfl hpre2 hset
  refine ⟨_, _, _, ⟨some 2, 5, 0, 300, fReq vQ.block, peerResp 1, ⟨(t, [], []), fMem vQ.block, []⟩, .success, rh1, resp1, w1, evs1⟩,
    ⟨some 2, 5, 0, 300, fReq vQ.block, resp1, ⟨(t', [], []), fMem vQ.block, w1.log⟩, .success, rh2, resp2, w2, evs2⟩,
    .call e1 l1 (.app (s1 := (t', [], [])) (m1 := fMem vQ.block) (rh1 := fReq vQ.block) (resp1 := resp1) ?_ (.call e2 l2 (.nil _ _ _))), ?_⟩
  · exact { sizes := fun i => (s1 i).symm
            reqBuf := ⟨by rw [r4]; rfl, by rw [r5]⟩
            reqLen := ⟨hpre.reqLen, hpre.reqLe⟩
            respBuf := ⟨rfl, rfl⟩
            callback := hcb
            keeps := by intro h; cases h }
  · have happ : AppStep false rh1 (fReq vQ.block) resp1 resp1 w1.mem (fMem vQ.block) :=
      { sizes := fun i => (s1 i).symm
        reqBuf := ⟨by rw [r4]; rfl, by rw [r5]⟩
        reqLen := ⟨hpre.reqLen, hpre.reqLe⟩
        respBuf := ⟨rfl, rfl⟩
        callback := hcb
        keeps := by intro h; cases h }
    have := C95_connection (.call e1 l1 (.app (s1 := (t', [], [])) happ (.call e2 l2 (.nil _ _ _))))
      (by
        intro z hz
        simp only [List.mem_cons, List.not_mem_nil, or_false] at hz
        rcases hz with rfl | rfl <;> exact hpre) (fun _ => vQ)
      (by
        intro z hz
        simp only [List.mem_cons, List.not_mem_nil, or_false] at hz
        rcases hz with rfl | rfl <;> exact ⟨fBlock, hclean, ⟨by decide +kernel, by decide +kernel⟩⟩)
      (by
        intro z hz
        simp only [List.mem_cons, List.not_mem_nil, or_false] at hz
        rcases hz with rfl | rfl <;> exact (show (UInt32.toNat 0).testBit 0 = false by decide))
      (by
        intro z hz
        simp only [List.mem_cons, List.not_mem_nil, or_false] at hz
        rcases hz with rfl | rfl <;> exact (show Status.success ≠ .networkError by decide))
    have k0 : (wireHeaders (headerBlock (fMem vQ.block) (fReq vQ.block)) 5 (UInt32.toNat 0)).length ≤ (fReq vQ.block).bufferLen := hwl
    have k1 : vQ.line = ascii "PUT / HTTP/1.1" := by decide +kernel
    have k2 : vQ.headers ++ autoLength 5 (UInt32.toNat 0) = [(ascii "Host", ascii "h"), (ascii "Content-Length", ascii "5")] := by decide +kernel
    have k3 : bodyOf (fMem vQ.block) (some 2) 5 = ascii "hello" := by decide +kernel
    simp only [List.map_cons, List.map_nil, List.flatten_cons, List.flatten_nil, List.length_cons, List.length_nil, List.filter_cons, List.filter_nil, fits,
      k0, decide_true, if_true, k1, k2, k3] at this
    exact this

end CoreHttp.Props

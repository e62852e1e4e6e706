import Verif.Props.Framing

/-! # C115: a part of a request is never taken for a request -/

namespace CoreHttp.Props
open CoreHttp Spec
variable {σ : Type} {P : Parser} {cfg : Cfg} {strict : Bool} {T : Transport σ} {send : σ → Bytes → Int × σ} {recv : σ → Nat → Int × Bytes × σ}
  {resp : Resp σ} {rh h : ReqHeaders} {b rb : Nat} {body : Option Nat} {n : Nat} {flags : UInt32}

/-! ### More bytes do not change what has been read -/

theorem takeLine_more (z : Bytes) : ∀ {x l r : Bytes}, takeLine x = some (l, r) → takeLine (x ++ z) = some (l, r ++ z)
  | [], _, _, h => by cases h
  | c :: x, l, r, h => by
    unfold takeLine at h
    rw [List.cons_append]
    unfold takeLine
    by_cases hc : c = 13 ∧ x.head? = some 10
    · rw [if_pos hc] at h
      obtain ⟨hc1, hc2⟩ := hc
      cases x with
      | nil => cases hc2
      | cons y x =>
        rw [if_pos ⟨hc1, hc2⟩]
        cases h
        rfl
    · rw [if_neg hc] at h
      cases ht : takeLine x with
      | none => rw [ht] at h; cases h
      | some p =>
        obtain ⟨l', r'⟩ := p
        rw [ht] at h
        cases h
        rw [if_neg, takeLine_more z ht]
        · rfl
        · cases x with
          | nil => cases ht
          | cons y x => exact hc

theorem readHeaders_more (z : Bytes) : ∀ {k k' : Nat} {x r : Bytes} {hs : List (Bytes × Bytes)}, readHeaders k x = some (hs, r) → k ≤ k' →
    readHeaders k' (x ++ z) = some (hs, r ++ z)
  | 0, _, _, _, _, h, _ => by cases h
  | k + 1, 0, _, _, _, _, hk => by omega
  | k + 1, k' + 1, x, r, hs, h, hk => by
    unfold readHeaders at h ⊢
    simp only [Option.bind_eq_bind] at h ⊢
    cases ht : takeLine x with
    | none => rw [ht] at h; cases h
    | some p =>
      obtain ⟨l, x'⟩ := p
      rw [ht] at h
      rw [takeLine_more z ht]
      simp only [Option.bind_some] at h ⊢
      by_cases hl : l = []
      · rw [if_pos hl] at h ⊢
        cases h
        rfl
      · rw [if_neg hl] at h ⊢
        cases hsp : splitHeader l with
        | none => rw [hsp] at h; cases h
        | some q =>
          rw [hsp] at h
          simp only [Option.bind_some] at h ⊢
          cases hr : readHeaders k x' with
          | none => rw [hr] at h; cases h
          | some y =>
            obtain ⟨hs', r'⟩ := y
            rw [hr] at h
            rw [readHeaders_more z hr (show k ≤ k' by omega)]
            cases h
            rfl

theorem readRequest_more (z : Bytes) {x l r : Bytes} {hs : List (Bytes × Bytes)} (h : readRequest x = some (l, hs, r)) :
    readRequest (x ++ z) = some (l, hs, r ++ z) := by
  unfold readRequest at h ⊢
  simp only [Option.bind_eq_bind] at h ⊢
  cases ht : takeLine x with
  | none => rw [ht] at h; cases h
  | some p =>
    obtain ⟨l', x'⟩ := p
    rw [ht] at h
    rw [takeLine_more z ht]
    simp only [Option.bind_some] at h ⊢
    cases hr : readHeaders (x'.length + 1) x' with
    | none => rw [hr] at h; cases h
    | some y =>
      obtain ⟨hs', r'⟩ := y
      rw [hr] at h
      rw [readHeaders_more z hr (show x'.length + 1 ≤ (x' ++ z).length + 1 by simp)]
      cases h
      rfl

theorem readChunked_more (z : Bytes) : ∀ {k k' : Nat} {x d r : Bytes}, readChunked k x = some (d, r) → k ≤ k' → readChunked k' (x ++ z) = some (d, r ++ z)
  | 0, _, _, _, _, h, _ => by cases h
  | k + 1, 0, _, _, _, _, hk => by omega
  | k + 1, k' + 1, x, d, r, h, hk => by
    unfold readChunked at h ⊢
    simp only [Option.bind_eq_bind] at h ⊢
    cases ht : takeLine x with
    | none => rw [ht] at h; cases h
    | some p =>
      obtain ⟨l, x'⟩ := p
      rw [ht] at h
      rw [takeLine_more z ht]
      simp only [Option.bind_some] at h ⊢
      cases hn : readHex (l.takeWhile (· ≠ 59)) with
      | none => rw [hn] at h; cases h
      | some n =>
        rw [hn] at h
        simp only [Option.bind_some] at h ⊢
        cases hb : takeLine (x'.drop n) with
        | none => rw [hb] at h; cases h
        | some q =>
          obtain ⟨bl, x''⟩ := q
          rw [hb] at h
          simp only [Option.bind_some] at h
          by_cases hc : bl ≠ [] ∨ x'.length < n
          · rw [if_pos hc] at h; cases h
          · rw [if_neg hc] at h
            have hn' : n ≤ x'.length := by
              rcases Nat.lt_or_ge x'.length n with h1 | h1
              · exact absurd (.inr h1) hc
              · exact h1
            rw [List.drop_append_of_le_length hn', takeLine_more z hb]
            simp only [Option.bind_some]
            rw [if_neg (fun h1 => hc (h1.imp id fun h2 => by rw [List.length_append] at h2; omega))]
            by_cases h0 : n = 0
            · rw [if_pos h0] at h ⊢
              cases h
              rfl
            · rw [if_neg h0] at h ⊢
              cases hr : readChunked k x'' with
              | none => rw [hr] at h; cases h
              | some y =>
                obtain ⟨d', r'⟩ := y
                rw [hr] at h
                rw [readChunked_more z hr (show k ≤ k' by omega)]
                cases h
                simp [List.take_append_of_le_length hn']

/-- A server that has read a request has read it, whatever follows. -/
theorem readMessage_more (z : Bytes) {x r : Bytes} {m : Message} (h : readMessage x = some (m, r)) : readMessage (x ++ z) = some (m, r ++ z) := by
  unfold readMessage at h ⊢
  simp only [Option.bind_eq_bind] at h ⊢
  cases ht : readRequest x with
  | none => rw [ht] at h; cases h
  | some p =>
    obtain ⟨l, hs, x'⟩ := p
    rw [ht] at h
    rw [readRequest_more z ht]
    simp only [Option.bind_some] at h ⊢
    split at h
    · cases h; rfl
    · rename_i v _ _
      cases hd : readDecimal v with
      | none => rw [hd] at h; cases h
      | some k =>
        rw [hd] at h
        simp only [Option.bind_some] at h ⊢
        by_cases hk : x'.length < k
        · rw [if_pos hk] at h; cases h
        · rw [if_neg hk] at h
          rw [if_neg (by rw [List.length_append]; omega)]
          cases h
          rw [List.take_append_of_le_length (by omega), List.drop_append_of_le_length (by omega)]
    · rename_i v _ _
      by_cases hv : v.map lowerAscii = ascii "chunked"
      · rw [if_pos hv] at h ⊢
        cases hr : readChunked (x'.length + 1) x' with
        | none => rw [hr] at h; cases h
        | some y =>
          obtain ⟨d', r'⟩ := y
          rw [hr] at h
          rw [readChunked_more z hr (show x'.length + 1 ≤ (x' ++ z).length + 1 by simp)]
          cases h
          rfl
      · rw [if_neg hv] at h; cases h
    · cases h

/-- No proper beginning of a request is a request. -/
theorem read_beginning {x y : Bytes} {m : Message} (h : readMessage x = some (m, [])) (hp : y <+: x) :
    readMessage y = none ∨ (y = x ∧ readMessage y = some (m, [])) := by
  cases hy : readMessage y with
  | none => exact .inl rfl
  | some p =>
    obtain ⟨m', r⟩ := p
    obtain ⟨z, rfl⟩ := hp
    rw [readMessage_more z hy] at h
    simp only [Option.some.injEq, Prod.mk.injEq, List.append_eq_nil_iff] at h
    obtain ⟨rfl, rfl, rfl⟩ := h
    exact .inr ⟨(List.append_nil _).symm, rfl⟩

theorem accepted_prefix {pre evs : List (Ev PLog)} (h : pre <+: evs) : accepted pre <+: accepted evs := by
  obtain ⟨post, rfl⟩ := h
  rw [accepted_append']
  exact List.prefix_append _ _

/-- **C115.** A described request, whose framing is left to the library, is sent with any body by HTTPClient_Send. At every moment (`pre`: what has happened so far), whatever
the transport does and whatever the call returns, if it returns: a server that reads what the transport has accepted either finds no whole request there, or
everything has been accepted and it finds exactly this request with exactly this body. -/
theorem C115_whole {w : World PLog σ} {q : Described} (hp : CallPre strict P cfg T send recv rh rb body n resp b w.mem)
    (hB : headerBlock w.mem rh = q.block) (hq : q.Clean) (hu : q.Unframed) (hfl : flags.toNat.testBit 0 = false) (fuel : Nat) :
    ∃ r w' evs, HTTPClient_Send P cfg fuel (some T) (some rh) body n (some resp) flags w = (r, w') ∧ w'.log = w.log ++ evs ∧
      ∀ pre, pre <+: evs → readMessage (accepted pre) = none ∨
        (accepted pre = accepted evs ∧ readMessage (accepted pre) = some (⟨q.line, q.headers ++ autoLength n flags.toNat, bodyOf w.mem body n⟩, [])) := by
  obtain ⟨r, w', evs, e, hl, hacc, _⟩ := C26_order (flags := flags) hp fuel
  refine ⟨r, w', evs, e, hl, fun pre hpre => ?_⟩
  have hr := read_length (n := n) (fl := flags.toNat) hq hu hfl (bodyOf_length hp) []
  rw [List.append_nil, ← wire_described (n := n) (flags := flags) hq hB] at hr
  have hpa := accepted_prefix hpre
  rcases read_beginning hr (hpa.trans hacc) with h | ⟨h1, h2⟩
  · exact .inl h
  · refine .inr ⟨?_, h2⟩
    have h3 := hacc.length_le
    have h4 := hpa.length_le
    have h5 := congrArg List.length h1
    exact hpa.eq_of_length (by unfold wireRequest at h3; omega)

/-- **C115, for a chunked body** sent in pieces. -/
theorem C115_chunked {w : World PLog σ} {q : Described} {ps : List Piece} {cs : List Chunk} {ls le v : Bytes}
    (hp : CallPre strict P cfg T send recv rh rb none 0 resp b w.mem) (hc : resp.getTime ≠ .null) (hn : n ≤ 2147483647) (hps : PiecesOk w.mem rb ps)
    (hB : headerBlock w.mem rh = q.block) (hq : q.Clean) (hno : valuesOf "content-length" q.headers = [])
    (hte : valuesOf "transfer-encoding" q.headers = [v]) (hv : v.map lowerAscii = ascii "chunked") (hfl : addsContentLength n flags.toNat = false)
    (hcs : ∀ c ∈ cs, ChunkOk c) (hls : Hex ls 0) (hle : ExtOk le) (hpieces : piecesBytes ps <+: chunkedBytes cs ls le) (fuel : Nat) :
    ∃ r w' evs, exchangeInSteps P cfg fuel T rh n flags ps resp w = (r, w') ∧ w'.log = w.log ++ evs ∧
      ∀ pre, pre <+: evs → readMessage (accepted pre) = none ∨
        (accepted pre = q.block ++ chunkedBytes cs ls le ∧ readMessage (accepted pre) = some (⟨q.line, q.headers, (cs.map Chunk.data).flatten⟩, [])) := by
  have hw : wireHeaders (headerBlock w.mem rh) n flags.toNat = q.block := by unfold wireHeaders; rw [hfl, hB]; rfl
  have hle' : (headerBlock w.mem rh).length ≤ rh.bufferLen := by
    have h3 := hp.reqLe
    unfold headerBlock; rw [hp.reqBuf]; simp only [List.length_take]; omega
  rcases C70_pieces_sent (flags := flags) (n := n) hp hc hn hps fuel with ⟨h1, _⟩ | ⟨_, r, w', evs, e, hl, hpre, _, hall⟩
  · rw [hw, ← hB] at h1; omega
  · rw [hw] at hpre
    refine ⟨r, w', evs, e, hl, fun pre hpr => ?_⟩
    have hr := read_chunked hq hno hte hv hcs hls hle []
    rw [List.append_nil] at hr
    exact read_beginning hr (((accepted_prefix hpr).trans hpre).trans ((List.prefix_append_right_inj _).mpr hpieces))

/-! ### Non-vacuity -/

/-- A transport that accepts at most 4 bytes at a time and fails when the number of calls (the first component) is used up; nothing is ever received. -/
def cutT : Transport PeerEnv :=
  ⟨some fun s d => if s.1 = 0 then (-1, s) else (((min 4 d.length : Nat) : Int), s.1 - 1, s.2), some fun s _ => (-1, [], s)⟩

/-- All hypotheses of C115 hold for a request with a body of 5 bytes that is cut off after any number of calls. -/
example (k : Nat) : ∃ r w' evs, HTTPClient_Send Ref.httpParser exCfg 300 (some cutT) (some (fReq vQ.block)) (some 2) 5 (some (peerResp 1)) 0
      ⟨(k, [], []), fMem vQ.block, []⟩ = (r, w') ∧ w'.log = evs ∧
    ∀ pre, pre <+: evs → readMessage (accepted pre) = none ∨
      (accepted pre = accepted evs ∧ ∃ m, readMessage (accepted pre) = some (m, []) ∧ m.body = bodyOf (fMem vQ.block) (some 2) 5) := by
  have hp := fPre [] [] (blk := vQ.block) (by decide +kernel) (by decide +kernel) (.inr ⟨rfl, rfl⟩ : (some 2 = none ∧ 5 = 0) ∨ (some 2 = some 2 ∧ 5 = 5))
  have hp' : CallPre true Ref.httpParser exCfg cutT (fun s d => if s.1 = 0 then (-1, s) else (((min 4 d.length : Nat) : Int), s.1 - 1, s.2))
      (fun s _ => (-1, [], s)) (fReq vQ.block) 0 (some 2) 5 (peerResp 1) 1 (fMem vQ.block) :=
    { hp with
      hasSend := rfl, hasRecv := rfl
      sendOk := fun s d => by dsimp only; split <;> dsimp only <;> omega
      recvOk := fun s len => ⟨by dsimp only; omega, Nat.zero_le _⟩ }
  have hclean : vQ.Clean := ⟨by decide +kernel, by decide +kernel,
    (show ∀ p ∈ vQ.headers, p.1 ≠ [] ∧ CleanField p.1 ∧ CleanValue p.2 by
      intro p hp
      simp only [vQ, List.mem_cons, List.not_mem_nil, or_false] at hp
      subst hp
      exact ⟨by decide, by decide, by decide⟩), by decide⟩
  obtain ⟨r, w', evs, e, hl, h⟩ := C115_whole (w := (⟨(k, [], []), fMem vQ.block, []⟩ : World PLog PeerEnv)) (flags := 0) hp' fBlock hclean
    ⟨by decide +kernel, by decide +kernel⟩ (by decide) 300
  refine ⟨r, w', evs, e, by simpa using hl, fun pre hpre => ?_⟩
  rcases h pre hpre with h | ⟨h1, h2⟩
  · exact .inl h
  · exact .inr ⟨h1, _, h2, rfl⟩

/-- What the server finds when the transport fails after `k` calls. -/
def cutRead (k : Nat) : Nat × Option Bytes :=
  let x := HTTPClient_Send Ref.httpParser exCfg 300 (some cutT) (some (fReq vQ.block)) (some 2) 5 (some (peerResp 1)) 0 ⟨(k, [], []), fMem vQ.block, []⟩
  ((accepted x.2.log).length, (readMessage (accepted x.2.log)).map (·.1.body))

/-- Cut off in the body, one byte is missing: no request. With one more call: the request. -/
example : cutRead 13 = (50, none) ∧ cutRead 14 = (51, some (ascii "hello")) := by constructor <;> decide +kernel

end CoreHttp.Props

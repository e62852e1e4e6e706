import Verif.Props.ReadHeader
import Verif.Props.ReceiveEx
import Verif.Lemmas.ReadHeaderFold
import Verif.Ref.Fold

/-!
# Property C86: header values continued on further lines

RFC 9112, 5.2: a value may be continued on the next line when that line begins with a blank. A parser that accepts this reports the lines of the value one by
one. The theorems of this file are about every parser that honours the contract, whether it accepts folded lines (`strict = false`) or not.
-/

namespace CoreHttp.Props
open CoreHttp Spec Ref
variable {σ : Type} {P : Parser} {cfg : Cfg} {strict : Bool} {T : Transport σ} {recv : σ → Nat → Int × Bytes × σ} {resp : Resp σ}
  {rh : ReqHeaders} {b rb : Nat}

/-- Every report shows the received data from the reported place. -/
theorem reported_slices {L : Nat} (post : List (Ev PLog)) : ∀ pre, EachEv (EvGood L) (pre ++ post) →
    reported post = List.zipWith (fun h a => (h.1, slice (received (pre ++ post)) a h.2.1.length, h.2.2)) (reported post) (reportedAt post) := by
  induction post with
  | nil => intro pre _; rfl
  | cons e post ih =>
    intro pre h
    have hsplit : pre ++ e :: post = (pre ++ [e]) ++ post := by simp
    have h2 := ih (pre ++ [e]) (by rw [← hsplit]; exact h)
    rw [← hsplit] at h2
    cases e with
    | header fl f vl x c =>
      have h3 := h pre _ post rfl
      simp only [EvGood] at h3
      simp only [reported, reportedAt, List.zipWith_cons_cons]
      rw [← h2]
      rw [received_append, slice_append_left h3.2.2.2, h3.2.1]
    | _ => exact h2

/-- Everything the parser reports is in the received data. -/
theorem obs_slices {L : Nat} {evs : List (Ev PLog)} (h : EachEv (EvGood L) evs) :
    ∀ o ∈ obsOf evs, slice (received evs) o.loc o.data.length = o.data := by
  have key : ∀ (post pre : List (Ev PLog)), EachEv (EvGood L) (pre ++ post) → ∀ o ∈ obsOf post, slice (received (pre ++ post)) o.loc o.data.length = o.data := by
    intro post
    induction post with
    | nil => intro pre _ o ho; cases ho
    | cons e post ih =>
      intro pre h o ho
      have hsplit : pre ++ e :: post = (pre ++ [e]) ++ post := by simp
      have h2 := ih (pre ++ [e]) (by rw [← hsplit]; exact h)
      rw [← hsplit] at h2
      by_cases hx : o ∈ obsOf post
      · exact h2 o hx
      · cases e with
        | parserEvent l =>
          cases l with
          | obs o' =>
            rcases List.mem_cons.mp ho with rfl | ho
            · have h3 := h pre _ post rfl
              simp only [EvGood] at h3
              rw [received_append, slice_append_left h3.1, h3.2.1]
            · exact absurd ho hx
          | _ => exact absurd ho hx
        | _ => exact absurd ho hx
  exact key evs [] h

/-- The bytes of a value that was not folded are in one place. -/
theorem contiguous_slice (stream : Bytes) (ps : List (Nat × Nat)) (hc : Contiguous ps) :
    ∃ n, bytesAt stream ps = slice stream (begins ps) n := by
  induction ps with
  | nil => exact ⟨0, by simp [bytesAt, slice]⟩
  | cons p ps ih =>
    obtain ⟨a, n⟩ := p
    cases ps with
    | nil => exact ⟨n, by simp [bytesAt, begins]⟩
    | cons q ps =>
      obtain ⟨c, m⟩ := q
      obtain ⟨rfl, h2⟩ := hc
      obtain ⟨k, hk⟩ := ih h2
      refine ⟨n + k, ?_⟩
      rw [← slice_append]
      simp only [bytesAt, List.map_cons, List.flatten_cons] at hk ⊢
      rw [hk]
      rfl

theorem slice_self (s : Bytes) (a n : Nat) : slice s a (slice s a n).length = slice s a n := by
  unfold slice
  rw [List.length_take, ← List.take_take, List.take_length]

/-- **C86**, exactly: of every header, the callback is given the name, the status code and, from the place where the value begins, as many bytes of the received
data as the value has. When the value was folded, these are not the bytes of the value: the line ends are included, and the end of the value is missing. -/
theorem C86_located {w : World PLog σ} (hp : RecvPre strict P cfg T recv resp rh b rb w.mem) (fuel : Nat) :
    ∃ r w' evs, HTTPClient_ReceiveAndParseHttpResponse P cfg fuel (some T) (some resp) (some rh) w = (r, w') ∧ w'.log = w.log ++ evs ∧
      ∀ st resp', r = .ok (st, resp') →
        reported evs = if resp.pHeaderParsingCallback.isSome then inPlace (received evs) (view (obsOf evs)).headers (valuePieces (obsOf evs)) else [] := by
  obtain ⟨r, w', t0, tr, e, hl, hev, hfr, h⟩ := receive_spec hp fuel
  refine ⟨r, w', _, e, hl, ?_⟩
  intro st resp' hr
  rcases h with ⟨rfl, h1⟩ | ⟨lst, total, h, st, resp', rfl, h1, h2, h3⟩
  · cases hr
  obtain ⟨ph0, base0, lo0, ht0, _⟩ := h2.tinv
  have h4 := reported_slices _ [] hev
  have h5 := ht0.loc.at_
  have h6 := ht0.loc.len
  generalize Ev.time t0 :: tr = evs at h4 h5 h6 ⊢
  rw [List.nil_append] at h4
  cases hc : resp.pHeaderParsingCallback.isSome with
  | false =>
    rw [hc] at h6
    simpa [lens] using h6
  | true =>
    rw [hc] at h5 h6
    simp only [if_true] at h5 h6 ⊢
    have e1 : ∀ (hs : List (Bytes × Bytes × Nat)) (as : List Nat),
        List.zipWith (fun h a => (h.1, slice (received evs) a h.2.1.length, h.2.2)) hs as =
        List.zipWith (fun (h : Bytes × Nat × Nat) a => (h.1, slice (received evs) a h.2.1, h.2.2)) (lens hs) as := by
      intro hs as; unfold lens; rw [List.zipWith_map_left]
    rw [h4, e1, h6, ← e1, h5]
    unfold inPlace
    rw [List.zipWith_map_right]

/-- **C86, partial** (missing, because false: `C86_refuted`): a header whose value was not folded is reported exactly, whatever the other headers are; and
there are exactly as many reports as headers. -/
theorem C86_unfolded_partial {w : World PLog σ} (hp : RecvPre strict P cfg T recv resp rh b rb w.mem) (fuel : Nat)
    (hcb : resp.pHeaderParsingCallback.isSome) :
    ∃ r w' evs, HTTPClient_ReceiveAndParseHttpResponse P cfg fuel (some T) (some resp) (some rh) w = (r, w') ∧ w'.log = w.log ++ evs ∧
      ∀ st resp', r = .ok (st, resp') →
        (reported evs).length = (view (obsOf evs)).headers.length ∧ (valuePieces (obsOf evs)).length = (view (obsOf evs)).headers.length ∧
        (∀ (i : Nat) h ps, (view (obsOf evs)).headers[i]? = some h → (valuePieces (obsOf evs))[i]? = some ps →
          h.2.1 = bytesAt (received evs) ps ∧ (Contiguous ps → (reported evs)[i]? = some h)) := by
  obtain ⟨r, w', evs, e, hl, hloc⟩ := C86_located hp fuel
  obtain ⟨r2, w2, t0, tr, e2, hl2, hev, hfr, h⟩ := receive_spec hp fuel
  rw [e] at e2
  simp only [Prod.mk.injEq] at e2
  obtain ⟨rfl, rfl⟩ := e2
  obtain rfl : evs = .time t0 :: tr := List.append_cancel_left (hl.symm.trans hl2)
  refine ⟨r, w', _, e, hl, ?_⟩
  intro st resp' hr
  have hrep := hloc st resp' hr
  rw [if_pos hcb] at hrep
  rcases h with ⟨rfl, h1⟩ | ⟨lst, total, h, st, resp', rfl, h1, h2, h3⟩
  · cases hr
  obtain ⟨ph0, base0, lo0, ht0, _⟩ := h2.tinv
  have hv := (ht0.loc.vals _ (obs_slices hev)).done
  generalize Ev.time t0 :: tr = evs at hrep hv ⊢
  have hlen : (valuePieces (obsOf evs)).length = (view (obsOf evs)).headers.length := by
    have := congrArg List.length hv
    rw [List.length_map, List.length_map] at this
    exact this.symm
  refine ⟨?_, hlen, ?_⟩
  · rw [hrep]; unfold inPlace; rw [List.length_zipWith]; omega
  · intro i h ps hi hps
    have hb : h.2.1 = bytesAt (received evs) ps := by
      have h5 := congrArg (fun l => l[i]?) hv
      simp only [List.getElem?_map, hi, Option.map_some] at h5
      unfold valuePieces at hps
      rw [hps] at h5
      simpa using h5
    refine ⟨hb, fun hc => ?_⟩
    rw [hrep]
    unfold inPlace
    rw [List.getElem?_zipWith, hi, hps]
    simp only [Option.some.injEq]
    obtain ⟨n, hn⟩ := contiguous_slice (received evs) ps hc
    obtain ⟨f, x, c⟩ := h
    dsimp only at hb ⊢
    rw [hb, hn, slice_self]

open Classical in
/-- **C86** for HTTPClient_ReadHeader, exactly: a lookup finds the first header with this name, if there is one, and the outputs delimit the first piece of its
value: the first line, when the value was folded. -/
theorem C86_lookup {name : Bytes} {w : World PLog σ} (hp : ReadPre strict P resp b name w.mem) (l : Option Nat) (n : Nat) :
    ∃ st l' n' w', HTTPClient_ReadHeader P (some resp) (some name) (some l) (some n) w = (.ok (st, some l', some n'), w') ∧
      (st = .success ↔ HasName name (allHeaders (readAll P ((w.mem b).take resp.bufferLen)).1)) ∧
      (st = .success → ∃ x, FirstNamed name (allHeaders (firstPieces false (readAll P ((w.mem b).take resp.bufferLen)).1)) x ∧
        Delimits (w.mem b) resp.bufferLen l' n' x ∧
        ∃ v, FirstNamed name (allHeaders (readAll P ((w.mem b).take resp.bufferLen)).1) v ∧ x <+: v) ∧
      (st ≠ .success → l' = l ∧ n' = n ∧ st = (if ¬ EndsInField name (readAll P ((w.mem b).take resp.bufferLen)).1 ∧
        (readAll P ((w.mem b).take resp.bufferLen)).2 = .ok then .headerNotFound else .invalidResponse)) := by
  classical
  obtain ⟨st, l', n', log', e, h⟩ := readHeader_run hp l n
  refine ⟨st, l', n', _, e, ?_⟩
  obtain ⟨hchain, hcut⟩ := readAll_cut hp.parser ((w.mem b).take resp.bufferLen)
  generalize (readAll P ((w.mem b).take resp.bufferLen)) = ra at h hchain hcut ⊢
  obtain ⟨os, er⟩ := ra
  dsimp only at h hchain hcut ⊢
  rw [← scan_firstPieces os false false (by simp)] at h
  have hv := scan_view (name := name) _ _ _ _ _ false rfl lookInit hchain (by simp [dangling, View.empty])
  have hall : CutL (allHeaders (firstPieces false os)) (allHeaders os) := hcut.flush.headers
  have hemp : View.empty.flush.headers = [] := rfl
  have hview : ((firstPieces false os).foldl View.step View.empty).flush.headers = allHeaders (firstPieces false os) := rfl
  rw [hemp, hview] at hv
  have hnames : ∀ hs hs' : List (Bytes × Bytes × Nat), CutL hs hs' → (HasName name hs ↔ HasName name hs') := by
    intro hs hs' hc
    induction hc with
    | nil => exact Iff.rfl
    | @snoc l l' a a' h1 h2 ih =>
      unfold HasName at ih ⊢
      simp only [List.mem_append, List.mem_singleton, or_and_right, exists_or, exists_eq_left]
      rw [ih, h2.1]
  have hends : EndsInField name os ↔ dangling name ((firstPieces false os).foldl View.step View.empty) := by
    have h3 := hcut.pending
    unfold EndsInField dangling
    show _ ↔ ∃ f, (view (firstPieces false os)).pending = _ ∧ _
    rcases hq : (view (firstPieces false os)).pending with _ | ⟨f, _ | x⟩ <;> rcases hq' : (view os).pending with _ | ⟨f', _ | x'⟩ <;>
      rw [hq, hq'] at h3 <;> try exact h3.elim
    · obtain rfl : f = f' := h3
      simp
    · simp
  generalize scan name false (firstPieces false os) = sc at h hv
  obtain ⟨ff, so⟩ := sc
  cases so with
  | some o =>
    obtain ⟨rfl, rfl, rfl, h4, h5⟩ := h
    obtain ⟨mid, f, c, post, h6, h7, h8⟩ := hv
    rw [List.nil_append] at h6
    have hhas : HasName name (allHeaders (firstPieces false os)) := ⟨(f, o.data, c), by rw [h6]; simp, h7⟩
    refine ⟨⟨fun _ => (hnames _ _ hall).mp hhas, fun _ => rfl⟩, fun _ => ⟨o.data, ⟨mid, f, c, post, h6, h7, h8⟩, ?_, ?_⟩, fun h => absurd rfl h⟩
    · refine ⟨rfl, fun h => by simp [h], fun h => ⟨o.loc, by simp [h], h4, ?_⟩⟩
      unfold slice at h5
      rw [List.drop_take, List.take_take, Nat.min_eq_left (by omega)] at h5
      exact h5
    · have hlen := hall.length
      have hlt : mid.length < (allHeaders os).length := by rw [← hlen, h6]; simp
      have hx := hall.get mid.length (f, o.data, c) _ (by rw [h6]; simp) (List.getElem?_eq_getElem hlt)
      generalize hy : (allHeaders os)[mid.length] = y at hx
      obtain ⟨f', v, c'⟩ := y
      obtain ⟨rfl, k2, rfl⟩ := hx
      refine ⟨v, ⟨(allHeaders os).take mid.length, f, c, (allHeaders os).drop (mid.length + 1), ?_, h7, ?_⟩, k2⟩
      · rw [← hy]
        rw [← List.drop_eq_getElem_cons hlt, List.take_append_drop]
      · intro x hx
        obtain ⟨i, hi, hxi⟩ := List.mem_iff_getElem.mp hx
        rw [List.length_take] at hi
        have him : i < mid.length := by omega
        have hc1 : (allHeaders (firstPieces false os))[i]? = some mid[i] := by
          rw [h6, List.getElem?_append_left him, List.getElem?_eq_getElem him]
        have hc2 : (allHeaders os)[i]? = some x := by
          rw [← hxi, List.getElem_take, List.getElem?_eq_getElem]
        have := hall.get i _ _ hc1 hc2
        rw [← this.1]
        exact h8 _ (List.getElem_mem him)
  | none =>
    obtain ⟨rfl, rfl, rfl⟩ := h
    obtain ⟨h1, mid, h6, h8⟩ := hv
    rw [List.nil_append] at h6
    have hno : ¬ HasName name (allHeaders os) := by
      rw [← hnames _ _ hall, h6]
      rintro ⟨x, hx, hs⟩
      exact h8 x hx hs
    have hne : (if ff = false ∧ er = .ok then Status.headerNotFound else .invalidResponse) ≠ .success := by split <;> simp
    refine ⟨⟨fun h => absurd h hne, fun h => absurd h hno⟩, fun h => absurd h hne, fun _ => ⟨rfl, rfl, ?_⟩⟩
    have : (ff = false) ↔ ¬ EndsInField name os := by
      rw [← Bool.not_eq_true, h1, hends]
    by_cases hc : ff = false ∧ er = .ok
    · rw [if_pos hc, if_pos ⟨this.mp hc.1, hc.2⟩]
    · rw [if_neg hc, if_neg (fun h => hc ⟨this.mpr h.1, h.2⟩)]

/-! ## A folded value -/

/-- A response with a folded value between two headers that are not folded. -/
def foldResp : Bytes := ascii "HTTP/1.1 200 OK\r\nA: 1\r\nX: abc\r\n def\r\nContent-Length: 0\r\n\r\n"

/-- Receive these pieces, with a parser that accepts folded lines. -/
def foldRun (s : List Bytes) : Run (Status × Resp Script) × World PLog Script :=
  HTTPClient_ReceiveAndParseHttpResponse foldParser exCfg 50 (some scriptT) (some (exResp 200 0)) (some (exReq exGet)) ⟨(4294967290, s), exRMem exGet 200, []⟩

theorem foldPre : RecvPre false foldParser exCfg scriptT scriptRecv (exResp 200 0) (exReq exGet) 1 0 (exRMem exGet 200) :=
  { exRecvPre exGet (by decide) 200 (by decide) (by decide) 0 with parser := foldParser_ok }

/-- Look up `name` in a buffer with these bytes, with a parser that accepts folded lines. -/
def foldLook (resp name : Bytes) : Run (Status × Option (Option Nat) × Option Nat) :=
  (HTTPClient_ReadHeader foldParser (some (exResp resp.length 0)) (some name) (some (some 7)) (some 9) ⟨(0, []), hdMem resp, []⟩).1

theorem foldLookPre (resp name : Bytes) (h1 : 0 < resp.length) (h2 : 0 < name.length) :
    ReadPre false foldParser (exResp resp.length 0) 1 name (hdMem resp) := { hdPre resp name h1 h2 with parser := foldParser_ok }

/-- **C86 is false**: the value of "X" is "abc def". The response is received with HTTPSuccess, but the callback is given "abc", CR, LF, " d"; and the lookup
gives "abc". -/
theorem C86_refuted :
    (view (obsOf (foldRun [foldResp]).2.log)).headers = [(ascii "A", ascii "1", 200), (ascii "X", ascii "abc def", 200), (ascii "Content-Length", ascii "0", 200)] ∧
    (seen (foldRun [foldResp])).map (fun s => (s.st, s.headerCount)) = some (.success, 3) ∧
    reported (foldRun [foldResp]).2.log = [(ascii "A", ascii "1", 200), (ascii "X", ascii "abc\r\n d", 200), (ascii "Content-Length", ascii "0", 200)] ∧
    foldLook foldResp (ascii "X") = .ok (.success, some (some 26), some 3) ∧ (foldResp.drop 26).take 3 = ascii "abc" := by decide +kernel

/-- The hypotheses of C86_located, C86_unfolded_partial and C86_lookup hold, and the response has folded and other values; the same when it arrives in pieces that cut the values. -/
example : RecvPre false foldParser exCfg scriptT scriptRecv (exResp 200 0) (exReq exGet) 1 0 (exRMem exGet 200) ∧ (exResp 200 0).pHeaderParsingCallback.isSome ∧
    ReadPre false foldParser (exResp foldResp.length 0) 1 (ascii "X") (hdMem foldResp) :=
  ⟨foldPre, rfl, foldLookPre _ _ (by decide +kernel) (by decide +kernel)⟩
example : valuePieces (obsOf (foldRun [foldResp]).2.log) = [[(20, 1)], [(26, 3), (31, 4)], [(53, 1)]] := by decide +kernel
example : Contiguous [(20, 1)] ∧ ¬ Contiguous [(26, 3), (31, 4)] := ⟨trivial, fun h => by have := h.1; omega⟩
example : valuePieces (obsOf (foldRun [foldResp.take 28, (foldResp.drop 28).take 4, foldResp.drop 32]).2.log) =
    [[(20, 1)], [(26, 2), (28, 1), (31, 1), (32, 3)], [(53, 1)]] ∧
  reported (foldRun [foldResp.take 28, (foldResp.drop 28).take 4, foldResp.drop 32]).2.log = reported (foldRun [foldResp]).2.log := by decide +kernel

end CoreHttp.Props

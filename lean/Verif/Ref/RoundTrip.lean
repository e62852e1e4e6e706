import Verif.Ref.Http
import Verif.Ref.MachineView
import Verif.Spec.Wire

/-! # What the reference parser makes of a well-formed response -/

namespace CoreHttp.Ref
open Spec Machine

variable {hr : CbRet}

/-- The abstract run of the reference parser. -/
def run (hr : CbRet) (n : Nat) (x : View × St A) (cs : Bytes) : View × St A := absRun http hr n x cs

theorem run_cons (n : Nat) (v : View) (a : A) (o : Option SpanK) (c : UInt8) (cs : Bytes) :
    run hr n (v, .live a o) (c :: cs) = run hr (n + 1) (absTree hr n c (step a c) v o) cs := rfl

theorem run_nil (n : Nat) (x : View × St A) : run hr n x [] = x := rfl

theorem run_append (n : Nat) (x : View × St A) (cs ds : Bytes) : run hr n x (cs ++ ds) = run hr (n + cs.length) (run hr n x cs) ds :=
  absRun_append http hr n x cs ds

/-- Composing two pieces. -/
theorem run_then {n : Nat} {x y z : View × St A} {cs ds : Bytes} (h1 : run hr n x cs = y)
    (h2 : run hr (n + cs.length) y ds = z) : run hr n x (cs ++ ds) = z := by
  rw [run_append, h1, h2]

theorem token_ne {c : UInt8} (h : isToken c = true) : c ≠ 13 ∧ c ≠ 58 := by
  constructor <;> rintro rfl <;> revert h <;> decide

/-- The name of a header field. -/
theorem name_run {i : Info} {tr any : Bool} (v : View) (cs : Bytes) (h : ∀ c ∈ cs, isToken c = true) : ∀ (n : Nat) (acc nm : Bytes),
    run hr n (v.step (frag .field acc), .live (.field i tr any nm) (some .field)) cs =
      (v.step (frag .field (acc ++ cs)), .live (.field i tr any (nm ++ cs.map lower)) (some .field)) := by
  induction cs with
  | nil => intro n acc nm; simp [run_nil]
  | cons c cs ih =>
    intro n acc nm
    have hc := h c List.mem_cons_self
    rw [run_cons]
    simp only [step, if_neg (token_ne hc).2, hc, if_true, absTree, frag_append]
    rw [ih (fun c hc => h c (List.mem_cons_of_mem _ hc))]
    simp

/-- Blanks after the colon. -/
theorem ows_run {i : Info} {tr : Bool} {nm : Bytes} (v : View) (cs : Bytes) (h : ∀ c ∈ cs, c = 32 ∨ c = 9) : ∀ (n : Nat),
    run hr n (v, .live (.valueWs i tr nm) none) cs = (v, .live (.valueWs i tr nm) none) := by
  induction cs with
  | nil => intro n; rfl
  | cons c cs ih =>
    intro n
    rw [run_cons]
    simp only [step, if_pos (h c List.mem_cons_self), absTree]
    exact ih (fun c hc => h c (List.mem_cons_of_mem _ hc)) _

/-- The value of a header field. -/
theorem value_run {i : Info} {tr : Bool} {nm : Bytes} (v : View) (cs : Bytes) (h : ∀ c ∈ cs, c ≠ 13 ∧ c ≠ 10 ∧ c ≠ 0) : ∀ (n : Nat) (acc : Bytes),
    run hr n (v.step (frag .value acc), .live (.value i tr nm acc) (some .value)) cs =
      (v.step (frag .value (acc ++ cs)), .live (.value i tr nm (acc ++ cs)) (some .value)) := by
  induction cs with
  | nil => intro n acc; simp [run_nil]
  | cons c cs ih =>
    intro n acc
    obtain ⟨h1, h2, h3⟩ := h c List.mem_cons_self
    rw [run_cons]
    simp only [step, if_neg h1, if_neg (not_or.mpr ⟨h2, h3⟩), absTree, frag_append]
    rw [ih (fun c hc => h c (List.mem_cons_of_mem _ hc))]
    simp

/-- Value and CR. -/
theorem value_cr {i : Info} {tr : Bool} {nm : Bytes} (v : View) (cs : Bytes) (h : ∀ c ∈ cs, c ≠ 13 ∧ c ≠ 10 ∧ c ≠ 0)
    (hb : cs.head? ≠ some 32 ∧ cs.head? ≠ some 9) (n : Nat) :
    run hr n (v, .live (.valueWs i tr nm) none) (cs ++ [13]) = (v.step (frag .value cs), .live (.valLF i tr nm cs) none) := by
  cases cs with
  | nil => rfl
  | cons c cs =>
    obtain ⟨h1, h2, h3⟩ := h c List.mem_cons_self
    have h4 : ¬ (c = 32 ∨ c = 9) := by
      simp only [List.head?_cons, ne_eq, Option.some.injEq] at hb
      exact not_or.mpr hb
    rw [List.cons_append, run_cons]
    simp only [step, if_neg h1, if_neg (not_or.mpr ⟨h2, h3⟩), if_neg h4, absTree, frag_append]
    refine run_then (value_run v cs (fun c hc => h c (List.mem_cons_of_mem _ hc)) _ _) ?_
    rfl

/-- The view after a header line. -/
def addField (v : View) (f : Field) : View := { v.flush with pending := some (f.name, some f.value) }

theorem field_step {v : View} (hv : v.flush.pending = none) (f : Field) :
    (v.step (frag .field f.name)).step (frag .value f.value) = addField v f := by
  simp [View.step, frag, SpanK.ev, hv, addField]

/-- A header line up to the CR. -/
theorem line_cr {i : Info} {tr any : Bool} {v : View} (hv : v.flush.pending = none) {f : Field} (hf : FieldOk f) (n : Nat) :
    run hr n (v, .live (.hdr i tr any) none) (f.name ++ [58] ++ f.ows ++ f.value ++ [13]) =
      (addField v f, .live (.valLF i tr (f.name.map lower) f.value) none) := by
  obtain ⟨h1, h2⟩ := hf.name
  rcases hn : f.name with _ | ⟨c, cs⟩
  · exact absurd hn h1
  rw [hn] at h2
  have hc : isToken c = true := h2 c List.mem_cons_self
  rw [List.append_assoc (_ ++ _), List.append_assoc (_ ++ _)]
  refine run_then (y := ((v.step (frag .field (c :: cs))), .live (.valueWs i tr ((c :: cs).map lower)) none)) ?_ ?_
  · refine run_then (y := ((v.step (frag .field (c :: cs))), .live (.field i tr any ((c :: cs).map lower)) (some .field))) ?_ rfl
    rw [run_cons]
    simp only [step, if_neg (token_ne hc).1, hc, if_true, absTree, frag_append]
    rw [List.nil_append, name_run v cs (fun c hc => h2 c (List.mem_cons_of_mem _ hc))]
    rfl
  · refine run_then (ows_run _ _ hf.ows _) ?_
    rw [value_cr _ _ hf.value hf.noBlank, ← hn, field_step hv]

/-- What the parser remembers of header lines. -/
def notes : Info → List Field → Except Errno Info
  | i, [] => .ok i
  | i, f :: fs => match i.note (f.name.map lower) f.value with
    | .ok i' => notes i' fs
    | .error e => .error e

theorem addField_flush (v : View) (f : Field) :
    (addField v f).flush = { v.flush with headers := v.flush.headers ++ [(f.name, f.value, v.flush.statusCode)], pending := none } := rfl

/-- Header lines. -/
theorem fields_run {tr : Bool} (fs : List Field) (hf : ∀ f ∈ fs, FieldOk f) : ∀ (n : Nat) (v : View) (i i' : Info) (any : Bool),
    v.flush.pending = none → (if tr then i' = i else notes i fs = .ok i') →
    run hr n (v, .live (.hdr i tr any) none) (fs.map Field.line).flatten =
      (fs.foldl addField v, .live (.hdr i' tr (any || !fs.isEmpty)) none) := by
  induction fs with
  | nil =>
    intro n v i i' any hv hi
    have : i' = i := by
      cases tr with
      | true => exact hi
      | false => simp [notes] at hi; exact hi.symm
    subst this
    simp [run_nil]
  | cons f fs ih =>
    intro n v i i' any hv hi
    have h1 := hf f List.mem_cons_self
    have h2 : ∀ f ∈ fs, FieldOk f := fun f h => hf f (List.mem_cons_of_mem _ h)
    have hline : f.line = (f.name ++ [58] ++ f.ows ++ f.value ++ [13]) ++ [10] := by simp [Field.line, crlf]
    have hv' : (addField v f).flush.pending = none := by rw [addField_flush]
    rw [List.map_cons, List.flatten_cons, hline]
    cases tr with
    | true =>
      refine run_then (run_then (line_cr hv h1 n) (z := (addField v f, .live (.hdr i true true) none)) rfl) ?_
      rw [ih h2 _ _ _ i' _ hv' hi]
      simp
    | false =>
      simp only [Bool.false_eq_true, if_false, notes] at hi
      cases hn : i.note (f.name.map lower) f.value with
      | error e => rw [hn] at hi; cases hi
      | ok i1 =>
        rw [hn] at hi
        refine run_then (run_then (line_cr hv h1 n) (z := (addField v f, .live (.hdr i1 false true) none)) ?_) ?_
        · rw [run_cons]
          simp only [step, if_true, Bool.false_eq_true, if_false, hn, absTree, run_nil]
        · rw [ih h2 _ _ _ i' _ hv' (by simpa using hi)]
          simp

/-- The views after header lines. -/
theorem fold_flush (fs : List Field) : ∀ v : View, v.flush.pending = none →
    (fs.foldl addField v).flush = { v.flush with headers := v.flush.headers ++ fs.map fun f => (f.name, f.value, v.flush.statusCode) } ∧
    (fs.foldl addField v).flush.pending = none := by
  induction fs with
  | nil => intro v hv; exact ⟨by simp, hv⟩
  | cons f fs ih =>
    intro v hv
    have := ih (addField v f) (by rw [addField_flush])
    rw [List.foldl_cons]
    refine ⟨?_, this.2⟩
    rw [this.1, addField_flush]
    simp [hv]

theorem flush_none {v : View} (h : v.pending = none) : v.flush = v := by unfold View.flush; rw [h]

theorem fold_pending (fs : List Field) (v : View) (hv : v.pending = none) :
    fs.foldl addField v = { v with
      headers := v.headers ++ (fs.map fun f => (f.name, f.value, v.statusCode)).dropLast
      pending := fs.getLast?.map fun f => (f.name, some f.value) } := by
  have hfl := flush_none hv
  rcases List.eq_nil_or_concat fs with rfl | ⟨gs, f, rfl⟩
  · cases v; simp only at hv; subst hv; simp
  · have h := (fold_flush gs v (by rw [hfl]; exact hv)).1
    rw [List.concat_eq_append, List.foldl_append, List.foldl_cons, List.foldl_nil, addField, h, hfl]
    simp

/-- The reason phrase. -/
theorem reason_run {m code : Nat} (v : View) (cs : Bytes) (h : ∀ c ∈ cs, c ≠ 13 ∧ c ≠ 10) : ∀ (n : Nat) (acc : Bytes),
    run hr n (v.step (frag (.status code) acc), .live (.reason m code) (some (.status code))) cs =
      (v.step (frag (.status code) (acc ++ cs)), .live (.reason m code) (some (.status code))) := by
  induction cs with
  | nil => intro n acc; simp [run_nil]
  | cons c cs ih =>
    intro n acc
    obtain ⟨h1, h2⟩ := h c List.mem_cons_self
    rw [run_cons]
    simp only [step, if_neg h1, if_neg h2, absTree, frag_append]
    rw [ih (fun c hc => h c (List.mem_cons_of_mem _ hc))]
    simp

/-- The view after the status line. -/
def lineView (code : Nat) : View := { View.empty with messages := 1, state := .incomplete, statusCode := code % 65536 }

/-- Reason phrase and line end. -/
theorem reason_line {m code : Nat} (cs : Bytes) (h : ∀ c ∈ cs, c ≠ 13 ∧ c ≠ 10) (n : Nat) :
    run hr n ({ View.empty with messages := 1, state := .incomplete }, .live (.reasonStart m code) none) (cs ++ crlf) =
      (lineView code, .live (.hdr ⟨m, code, none, false, false, false⟩ false false) none) := by
  cases cs with
  | nil => rfl
  | cons c cs =>
    obtain ⟨h1, h2⟩ := h c List.mem_cons_self
    rw [List.cons_append, run_cons]
    simp only [step, if_neg h1, if_neg h2, absTree, frag_append]
    refine run_then (reason_run _ cs (fun c hc => h c (List.mem_cons_of_mem _ hc)) _ _) ?_
    rfl

theorem digit_ok {k : Nat} (hk : k < 10) : isDigit (UInt8.ofNat (48 + k)) = true ∧ (UInt8.ofNat (48 + k)).toNat - 48 = k := by
  have : ∀ k : Fin 10, isDigit (UInt8.ofNat (48 + k.val)) = true ∧ (UInt8.ofNat (48 + k.val)).toNat - 48 = k.val := by decide
  exact this ⟨k, hk⟩

/-- The version as the parser keeps it. -/
def minorOf : Version → Nat
  | .v10 => 0
  | .v11 => 1

/-- The status line. -/
theorem line_run {code : Nat} (ver : Version) (hc : code ≤ 999) (reason : Bytes) (h : ∀ c ∈ reason, c ≠ 13 ∧ c ≠ 10) (n : Nat) :
    run hr n (View.empty, .live .start none) (ver.text ++ digits3 code ++ [32] ++ reason ++ crlf) =
      (lineView code, .live (.hdr ⟨minorOf ver, code, none, false, false, false⟩ false false) none) := by
  rw [List.append_assoc (_ ++ _)]
  refine run_then ?_ (reason_line reason h _)
  refine run_then (y := ({ View.empty with messages := 1, state := .incomplete }, .live (.code (minorOf ver) code 3) none)) ?_ ?_
  · refine run_then (y := ({ View.empty with messages := 1, state := .incomplete }, .live (.code (minorOf ver) 0 0) none))
      (by cases ver <;> rfl) ?_
    have d1 := digit_ok (k := code / 100) (by omega)
    have d2 := digit_ok (k := code / 10 % 10) (by omega)
    have d3 := digit_ok (k := code % 10) (by omega)
    unfold digits3
    rw [run_cons]
    simp only [step, show (0 : Nat) < 3 by decide, if_true, d1, absTree, run_cons, show (0 + 1 : Nat) < 3 by decide, d2,
      show (0 + 1 + 1 : Nat) < 3 by decide, d3, run_nil]
    rw [show 10 * (10 * (10 * 0 + code / 100) + code / 10 % 10) + code % 10 = code by omega]
  · rw [run_cons]
    simp [step, absTree, run_nil]

/-- A "Connection" field with member `x`. -/
def isConn (x : String) (f : Field) : Bool := decide (f.is "connection" ∧ ascii x ∈ listItems f.value)

/-- A "Transfer-Encoding" field that ends in `chunked`. -/
def isChunked (f : Field) : Bool := decide (f.is "transfer-encoding" ∧ (listItems f.value).getLast? = some (ascii "chunked"))

theorem names_distinct {nm : Bytes} : (nm = ascii "transfer-encoding" → nm ≠ ascii "content-length") ∧
    (nm = ascii "connection" → nm ≠ ascii "content-length" ∧ nm ≠ ascii "transfer-encoding") := by
  refine ⟨?_, fun h => ⟨?_, ?_⟩⟩
  · rintro rfl; decide
  · subst h; decide
  · subst h; decide

theorem lower_eq : lower = lowerAscii := rfl

/-- A field other than Content-Length. -/
theorem note_plain {f : Field} {i : Info} (h1 : ¬ f.is "content-length") (h : ¬ f.is "transfer-encoding" ∨ i.cl = none) :
    i.note (f.name.map lower) f.value = .ok { i with
      chunked := i.chunked || isChunked f
      close := i.close || isConn "close" f
      keepAlive := i.keepAlive || isConn "keep-alive" f } := by
  obtain ⟨mi, co, cl, ch, clo, ka⟩ := i
  dsimp only at h
  have h1' : ¬ f.name.map lower = ascii "content-length" := h1
  have hconn : ∀ x, isConn x f = decide (f.name.map lower = ascii "connection" ∧ ascii x ∈ listItems f.value) := fun _ => rfl
  have hch : isChunked f = decide (f.name.map lower = ascii "transfer-encoding" ∧ (listItems f.value).getLast? = some (ascii "chunked")) := rfl
  rw [hconn, hconn, hch]
  simp only [Info.note, if_neg h1']
  by_cases h2 : f.name.map lower = ascii "transfer-encoding"
  · have h3 : ¬ f.name.map lower = ascii "connection" := fun h => (names_distinct.2 h).2 h2
    have hcl := h.resolve_left (fun h => h h2)
    subst hcl
    rw [if_pos h2, if_neg (by simp)]
    rw [decide_eq_false (p := _ ∧ _) (fun h => h3 h.1), decide_eq_false (p := _ ∧ _) (fun h => h3 h.1)]
    simp only [h2, true_and]
    by_cases h4 : (listItems f.value).getLast? = some (ascii "chunked") <;> simp [h4]
  · rw [if_neg h2]
    simp only [h2, false_and]
    by_cases h3 : f.name.map lower = ascii "connection"
    · rw [if_pos h3]
      simp only [h3, true_and]
      simp
    · rw [if_neg h3]
      simp [h3]

/-- Without Content-Length; or with one, and without Transfer-Encoding. -/
theorem notes_spec (fs : List Field) : ∀ i : Info,
    (fs.filter (fun f => f.is "content-length") = [] ∧ (i.cl = none ∨ ∀ f ∈ fs, ¬ f.is "transfer-encoding") →
      notes i fs = .ok { i with
        chunked := i.chunked || fs.any isChunked
        close := i.close || fs.any (isConn "close")
        keepAlive := i.keepAlive || fs.any (isConn "keep-alive") }) ∧
    (∀ f n, fs.filter (fun f => f.is "content-length") = [f] → readDecimal (trimBlanks f.value) = some n → n < 18446744073709551615 →
      (∀ f ∈ fs, ¬ f.is "transfer-encoding") → i.cl = none → i.chunked = false →
      notes i fs = .ok { i with
        cl := some n
        close := i.close || fs.any (isConn "close")
        keepAlive := i.keepAlive || fs.any (isConn "keep-alive") }) := by
  induction fs with
  | nil => intro i; exact ⟨fun _ => by simp [notes], fun f n h => by simp at h⟩
  | cons g fs ih =>
    intro i
    refine ⟨?_, ?_⟩
    · rintro ⟨h1, h2⟩
      have hg : ¬ g.is "content-length" := by
        intro h; simp [h] at h1
      rw [List.filter_cons_of_neg (by simpa using hg)] at h1
      have h3 : ¬ g.is "transfer-encoding" ∨ i.cl = none := h2.symm.imp (fun h => h g List.mem_cons_self) id
      have h2' := h2.imp id fun h f hf => h f (List.mem_cons_of_mem _ hf)
      rw [notes, note_plain hg h3]
      simp only
      refine ((ih { i with chunked := i.chunked || isChunked g, close := i.close || isConn "close" g, keepAlive := i.keepAlive || isConn "keep-alive" g }).1 ⟨h1, h2'⟩).trans ?_
      simp [Bool.or_assoc]
    · intro f n h1 h2 h3 h4 h5 h6
      by_cases hg : g.is "content-length"
      · rw [List.filter_cons_of_pos (by simpa using hg)] at h1
        have h1' := (List.cons.inj h1).2
        obtain rfl := (List.cons.inj h1).1
        have hg' : g.name.map lower = ascii "content-length" := hg
        have hc : ∀ x, isConn x g = false := by
          intro x
          simp only [isConn, decide_eq_false_iff_not, not_and]
          exact fun h => absurd hg (names_distinct.2 h).1
        have : i.note (g.name.map lower) g.value = .ok { i with cl := some n } := by
          simp [Info.note, hg', h5, h6, h2, h3]
        rw [notes, this]
        simp only
        refine ((ih _).1 ⟨h1', .inr fun f hf => h4 f (List.mem_cons_of_mem _ hf)⟩).trans ?_
        have hz : fs.any isChunked = false := by
          rw [List.any_eq_false]
          intro x hx
          simp only [isChunked, decide_eq_true_eq, not_and]
          exact fun h => absurd h (h4 x (List.mem_cons_of_mem _ hx))
        simp [hc, hz]
      · rw [List.filter_cons_of_neg (by simpa using hg)] at h1
        have hgt := h4 g List.mem_cons_self
        have hz : isChunked g = false := by simp [isChunked, hgt]
        rw [notes, note_plain hg (.inl hgt)]
        simp only
        refine ((ih { i with chunked := i.chunked || isChunked g, close := i.close || isConn "close" g, keepAlive := i.keepAlive || isConn "keep-alive" g }).2 f n h1 h2 h3
          (fun f hf => h4 f (List.mem_cons_of_mem _ hf)) h5 (by simp [h6, hz])).trans ?_
        simp [Bool.or_assoc, hz]

/-- Data of known length; `n + 1` bytes remain. -/
theorem body_run {i : Info} (cs : Bytes) : ∀ (n : Nat) (v : View) (acc : Bytes), cs ≠ [] →
    run hr n (v.step (frag .body acc), .live (.bodyIn i (cs.length - 1)) (some .body)) cs =
      ((v.step (frag .body (acc ++ cs))).step ⟨.messageComplete, 0, []⟩, .live (.complete i.closes) none) := by
  induction cs with
  | nil => intro n v acc h; exact absurd rfl h
  | cons c cs ih =>
    intro n v acc _
    rw [run_cons]
    cases cs with
    | nil => simp only [List.length_cons, List.length_nil, Nat.zero_add, Nat.sub_self, step, finish, absTree, frag_append, run_nil]
    | cons d ds =>
      simp only [List.length_cons, Nat.add_sub_cancel, step, absTree, frag_append]
      have := ih (n + 1) v (acc ++ [c]) (by simp)
      simp only [List.length_cons, Nat.add_sub_cancel] at this
      rw [this]; simp

theorem body_all {i : Info} (cs : Bytes) (h : cs ≠ []) (n : Nat) (v : View) :
    run hr n (v, .live (.bodyStart i (cs.length - 1)) none) cs =
      ((v.step (frag .body cs)).step ⟨.messageComplete, 0, []⟩, .live (.complete i.closes) none) := by
  cases cs with
  | nil => exact absurd rfl h
  | cons c cs =>
    rw [run_cons]
    cases cs with
    | nil => simp only [List.length_cons, List.length_nil, Nat.zero_add, Nat.sub_self, step, finish, absTree, frag_append, run_nil, List.nil_append]
    | cons d ds =>
      simp only [List.length_cons, Nat.add_sub_cancel, step, absTree, frag_append]
      have := body_run (hr := hr) (i := i) (d :: ds) (n + 1) v ([] ++ [c]) (by simp)
      simp only [List.length_cons, Nat.add_sub_cancel] at this
      rw [this]; simp

/-- The data of a chunk; `n + 1` bytes remain. -/
theorem chunkData_run {i : Info} (cs : Bytes) : ∀ (n : Nat) (v : View) (acc : Bytes), cs ≠ [] →
    run hr n (v.step (frag .body acc), .live (.chunkIn i (cs.length - 1)) (some .body)) cs =
      (v.step (frag .body (acc ++ cs)), .live (.chunkCR i) none) := by
  induction cs with
  | nil => intro n v acc h; exact absurd rfl h
  | cons c cs ih =>
    intro n v acc _
    rw [run_cons]
    cases cs with
    | nil => simp only [List.length_cons, List.length_nil, Nat.zero_add, Nat.sub_self, step, absTree, frag_append, run_nil]
    | cons d ds =>
      simp only [List.length_cons, Nat.add_sub_cancel, step, absTree, frag_append]
      have := ih (n + 1) v (acc ++ [c]) (by simp)
      simp only [List.length_cons, Nat.add_sub_cancel] at this
      rw [this]; simp

theorem chunkData_all {i : Info} (cs : Bytes) (h : cs ≠ []) (n : Nat) (v : View) :
    run hr n (v, .live (.chunkStart i (cs.length - 1)) none) cs = (v.step (frag .body cs), .live (.chunkCR i) none) := by
  cases cs with
  | nil => exact absurd rfl h
  | cons c cs =>
    rw [run_cons]
    cases cs with
    | nil => simp only [List.length_cons, List.length_nil, Nat.zero_add, Nat.sub_self, step, absTree, frag_append, run_nil, List.nil_append]
    | cons d ds =>
      simp only [List.length_cons, Nat.add_sub_cancel, step, absTree, frag_append]
      have := chunkData_run (hr := hr) (i := i) (d :: ds) (n + 1) v ([] ++ [c]) (by simp)
      simp only [List.length_cons, Nat.add_sub_cancel] at this
      rw [this]; simp

theorem hex_eq : hexVal = hexDigit := rfl

/-- The text of a chunk size. -/
theorem size_run {i : Info} {s : Bytes} {k : Nat} (h : Hex s k) (v : View) (n : Nat) :
    run hr n (v, .live (.chunkSize i 0 false) none) s = (v, .live (.chunkSize i k true) none) := by
  induction h with
  | one c d hc =>
    rw [run_cons]
    simp only [step, hex_eq, hc, absTree, run_nil]
    simp
  | more s k c d _ hc ih =>
    refine run_then ih ?_
    rw [run_cons]
    simp only [step, hex_eq, hc, absTree, run_nil]

theorem ext_run {i : Info} {k : Nat} (cs : Bytes) (h : ∀ c ∈ cs, c ≠ 13 ∧ c ≠ 10) : ∀ (n : Nat) (v : View),
    run hr n (v, .live (.chunkExt i k) none) cs = (v, .live (.chunkExt i k) none) := by
  induction cs with
  | nil => intro n v; rfl
  | cons c cs ih =>
    intro n v
    obtain ⟨h1, h2⟩ := h c List.mem_cons_self
    rw [run_cons]
    simp only [step, if_neg h1, if_neg h2, absTree]
    exact ih (fun c hc => h c (List.mem_cons_of_mem _ hc)) _ _

/-- The line with a chunk size, up to the CR. -/
theorem sizeLine_run {i : Info} {s e : Bytes} {k : Nat} (h : Hex s k) (he : ExtOk e) (v : View) (n : Nat) :
    run hr n (v, .live (.chunkSize i 0 false) none) (s ++ e ++ [13]) = (v, .live (.chunkLF i k) none) := by
  rw [List.append_assoc]
  refine run_then (size_run h v n) ?_
  rcases he with rfl | ⟨t, rfl, ht⟩
  · rfl
  · rw [List.cons_append, run_cons]
    refine run_then (y := (v, .live (.chunkExt i k) none)) (ext_run t ht _ _) rfl

/-- A chunk. -/
theorem chunk_run {i : Info} {c : Chunk} (h : ChunkOk c) (v : View) (n : Nat) :
    run hr n (v, .live (.chunkSize i 0 false) none) c.bytes = (v.step (frag .body c.data), .live (.chunkSize i 0 false) none) := by
  have : c.bytes = (c.size ++ c.ext ++ [13]) ++ ([10] ++ (c.data ++ crlf)) := by simp [Chunk.bytes, crlf]
  rw [this]
  refine run_then (sizeLine_run h.size h.ext v n) ?_
  refine run_then (y := (v, .live (.chunkStart i (c.data.length - 1)) none)) ?_ ?_
  · have hne := h.nonempty
    cases hd : c.data with
    | nil => exact absurd hd hne
    | cons x xs => rfl
  · exact run_then (chunkData_all _ h.nonempty _ _) rfl

theorem chunks_run {i : Info} (cs : List Chunk) (h : ∀ c ∈ cs, ChunkOk c) : ∀ (v : View) (n : Nat),
    run hr n (v, .live (.chunkSize i 0 false) none) (cs.map Chunk.bytes).flatten =
      ({ v with body := v.body ++ (cs.map Chunk.data).flatten }, .live (.chunkSize i 0 false) none) := by
  induction cs with
  | nil => intro v n; simp [run_nil]
  | cons c cs ih =>
    intro v n
    rw [List.map_cons, List.flatten_cons]
    refine run_then (chunk_run (h c List.mem_cons_self) v n) ?_
    rw [ih fun c hc => h c (List.mem_cons_of_mem _ hc)]
    simp [View.step, frag, SpanK.ev]

/-- The view of a complete response. -/
def finalView (r : Response) (conn ka : Bool) : View where
  messages := 1
  state := .complete
  statusCode := r.code
  headers := (r.fields.map fun f => (f.name, f.value, r.code)) ++ (r.content.trailers.map fun f => (f.name, f.value, r.code)).dropLast
  pending := r.content.trailers.getLast?.map fun f => (f.name, some f.value)
  body := r.content.data
  contentLength := some (UInt64.ofNat r.statedLength)
  connClose := conn
  keepAlive := ka
  headersEnd := some r.head.length

/-- The view at the end of the header section. -/
def headView (r : Response) (conn ka : Bool) : View where
  messages := 1
  state := .incomplete
  statusCode := r.code
  headers := r.fields.map fun f => (f.name, f.value, r.code)
  pending := none
  body := []
  contentLength := some (UInt64.ofNat r.statedLength)
  connClose := conn
  keepAlive := ka
  headersEnd := some r.head.length

/-- The view before the last byte of the header section. -/
def preView (r : Response) : View := r.fields.foldl addField (lineView r.code)

theorem fold_state (fs : List Field) : ∀ v : View, (fs.foldl addField v).state = v.state := by
  induction fs with
  | nil => intro v; rfl
  | cons f fs ih => intro v; rw [List.foldl_cons, ih]; unfold addField View.flush; split <;> rfl

/-- The header section but for its last byte; then that. -/
theorem head_run {r : Response} {i : Info} (hcode : r.code ≤ 999) (hreason : ∀ c ∈ r.reason, c ≠ 13 ∧ c ≠ 10)
    (hfields : ∀ f ∈ r.fields, FieldOk f) (hi : notes ⟨minorOf r.version, r.code, none, false, false, false⟩ r.fields = .ok i)
    (hcl : i.cl.getD 0 = r.statedLength) (hu : hr = .continue_ ∨ hr = .noBody) :
    ∃ w v a, r.head = w ++ [10] ∧ run hr 0 (View.empty, .live .start none) w = (v, .live a none) ∧ v.state = .incomplete ∧
    run hr 0 (View.empty, .live .start none) r.head =
      absTree hr 0 0 (if hr = .noBody then finish i else afterHeaders i) (headView r i.close i.keepAlive) none := by
  have e : r.head = ((r.version.text ++ digits3 r.code ++ [32] ++ r.reason ++ crlf) ++ ((r.fields.map Field.line).flatten ++ [13])) ++ [10] := by
    simp [Response.head, section_, crlf]
  have hpn : (lineView r.code).flush.pending = none := rfl
  obtain ⟨hf1, hf2⟩ := fold_flush r.fields (lineView r.code) hpn
  have hm : r.code % 65536 = r.code := Nat.mod_eq_of_lt (by omega)
  have h1 : run hr 0 (View.empty, .live .start none) ((r.version.text ++ digits3 r.code ++ [32] ++ r.reason ++ crlf) ++
      ((r.fields.map Field.line).flatten ++ [13])) =
      (r.fields.foldl addField (lineView r.code), .live (.endLF i false (false || !r.fields.isEmpty)) none) :=
    run_then (line_run _ hcode _ hreason 0) (run_then (fields_run r.fields hfields _ _ _ i _ hpn (by simpa using hi)) rfl)
  refine ⟨_, _, _, e, h1, by rw [fold_state]; rfl, ?_⟩
  generalize (r.version.text ++ digits3 r.code ++ [32] ++ r.reason ++ crlf) ++ ((r.fields.map Field.line).flatten ++ [13]) = W at e h1
  have hl : r.head.length = 0 + W.length + 1 := by rw [e]; simp
  rw [show run hr 0 (View.empty, .live .start none) r.head = run hr 0 (View.empty, .live .start none) (W ++ [10]) by rw [e]]
  refine run_then h1 ?_
  rw [run_cons]
  simp only [step, if_true, Bool.false_eq_true, if_false]
  generalize hb : r.fields.foldl addField (lineView r.code) = u at hf1 hf2
  have hv : u.step ⟨.headersComplete 0 (UInt64.ofNat (i.cl.getD 0)) i.close i.keepAlive, 0 + W.length + 1, []⟩ =
      headView r i.close i.keepAlive := by
    rw [← hl]
    have h1 : u.connClose = u.flush.connClose ∧ u.keepAlive = u.flush.keepAlive := by unfold View.flush; split <;> exact ⟨rfl, rfl⟩
    simp only [View.step, hcl, h1, hf1]
    simp [headView, lineView, View.empty, View.flush, hm]
  have hat : ∀ (n m : Nat) (c d : UInt8) (v : View), absTree hr n c (finish i) v none = absTree hr m d (finish i) v none ∧
      absTree hr n c (afterHeaders i) v none = absTree hr m d (afterHeaders i) v none := by
    intro n m c d v
    refine ⟨rfl, ?_⟩
    unfold afterHeaders
    split
    · rfl
    · split
      · rfl
      · rfl
      · split <;> rfl
  rcases hu with rfl | rfl
  · simp only [absTree, hv, run_nil]
    rw [if_neg (by decide)]
    exact (hat _ _ _ _ _).2
  · simp only [absTree, hv, run_nil]
    rw [if_pos trivial]
    exact (hat _ _ _ _ _).1

theorem bodyIn_prefix {i : Info} (cs : Bytes) : ∀ (k n : Nat) (v : View), cs.length ≤ k →
    ∃ v' a o, run hr n (v, .live (.bodyIn i k) (some .body)) cs = (v', .live a o) ∧ v'.state = v.state := by
  induction cs with
  | nil => intro k n v _; exact ⟨_, _, _, rfl, rfl⟩
  | cons c cs ih =>
    intro k n v h
    cases k with
    | zero => simp at h
    | succ k =>
      rw [run_cons]
      simp only [step, absTree]
      exact ih k (n + 1) _ (by simpa using h)

/-- Data of known length, not all of it. -/
theorem body_prefix {i : Info} (cs : Bytes) (k n : Nat) (v : View) (h : cs.length ≤ k) :
    ∃ v' a o, run hr n (v, .live (.bodyStart i k) none) cs = (v', .live a o) ∧ v'.state = v.state := by
  cases cs with
  | nil => exact ⟨_, _, _, rfl, rfl⟩
  | cons c cs =>
    cases k with
    | zero => simp at h
    | succ k =>
      rw [run_cons]
      simp only [step, absTree]
      exact bodyIn_prefix cs k (n + 1) _ (by simpa using h)

/-- `Response.closes`, as a computation. -/
def closesB (r : Response) : Bool :=
  r.fields.any (isConn "close") || (decide (minorOf r.version = 0) && !r.fields.any (isConn "keep-alive"))

theorem isConn_any (r : Response) (x : String) : r.fields.any (isConn x) = true ↔ r.connection x := by
  simp [isConn, Response.connection]

theorem closesB_iff (r : Response) : closesB r = true ↔ r.closes := by
  unfold closesB Response.closes
  rw [← isConn_any, ← isConn_any, Bool.or_eq_true, Bool.and_eq_true, decide_eq_true_iff, Bool.not_eq_true', Bool.not_eq_true]
  cases r.version <;> simp [minorOf]

/-- What the parser is told about the body. -/
def answerTo (head : Bool) : CbRet := if head then .noBody else .continue_

/-- **A well-formed response, read by the reference parser**: complete after the last byte and not before; status code, fields and body as in the response. -/
theorem response_run {head : Bool} {r : Response} (ok : r.Ok head) :
    ∃ w c v a o, r.bytes = w ++ [c] ∧ run (answerTo head) 0 (View.empty, .live .start none) w = (v, .live a o) ∧ v.state ≠ .complete ∧
      run (answerTo head) 0 (View.empty, .live .start none) r.bytes =
        (finalView r (r.fields.any (isConn "close")) (r.fields.any (isConn "keep-alive")), .live (.complete (closesB r)) none) := by
  have hu : answerTo head = .continue_ ∨ answerTo head = .noBody := by cases head <;> simp [answerTo]
  have hlen0 : r.lengths = [] → r.statedLength = 0 := by intro h; unfold Response.statedLength; rw [h]
  have hlen1 : ∀ n, r.SaysLength n → r.statedLength = n := by
    rintro n ⟨⟨f, h1, h2⟩, _⟩
    unfold Response.statedLength; rw [h1]; simp [h2]
  have hplain := (notes_spec r.fields ⟨minorOf r.version, r.code, none, false, false, false⟩).1
  have hsays := (notes_spec r.fields ⟨minorOf r.version, r.code, none, false, false, false⟩).2
  have hok := ok.content
  rcases hc : r.content with _ | d | ⟨cs, ls, le, ts⟩ <;> rw [hc] at hok <;> dsimp only at hok
  · -- no body
    obtain ⟨hb, hl⟩ := hok
    have hbytes : r.bytes = r.head := by simp [Response.bytes, hc, Content.bytes]
    have key : ∃ i, notes ⟨minorOf r.version, r.code, none, false, false, false⟩ r.fields = .ok i ∧ i.code = r.code ∧ i.cl.getD 0 = r.statedLength ∧
        i.close = r.fields.any (isConn "close") ∧ i.keepAlive = r.fields.any (isConn "keep-alive") ∧ i.minor = minorOf r.version ∧
        (i.chunked = true → r.fields.any isChunked = true) := by
      rcases hl with hl | ⟨n, hs⟩
      · exact ⟨_, hplain ⟨hl, .inl rfl⟩, rfl, (hlen0 hl).symm, by simp, by simp, rfl, by simp⟩
      · obtain ⟨⟨f, h1, h2⟩, h3, h4⟩ := id hs
        exact ⟨_, hsays f n h1 h2 h3 h4 rfl rfl, rfl, (hlen1 n hs).symm, by simp, by simp, rfl, by simp⟩
    obtain ⟨i, k1, k2, k3, k4, k5, k6, k8⟩ := key
    have k7 : i.closes = closesB r := by simp [Info.closes, closesB, k6, k4, k5]
    obtain ⟨w, v, a, e1, e2, e3, e4⟩ := head_run ok.code.2 ok.reason ok.fields k1 k3 hu
    refine ⟨w, 10, v, a, none, by rw [hbytes, e1], e2, by rw [e3]; simp, ?_⟩
    rw [hbytes, e4]
    have ht : (if answerTo head = .noBody then finish i else afterHeaders i) = finish i := by
      split
      · rfl
      · rename_i h
        have hh : head = false := by cases head <;> simp_all [answerTo]
        obtain ⟨hb1, hb2, hb3⟩ := hb.resolve_left (by simp [hh])
        have hnb : i.noBody = true := by
          unfold Info.noBody; rw [k2]; exact decide_eq_true hb1
        have hch : i.chunked = false := by
          cases hx : i.chunked with
          | false => rfl
          | true =>
            have := k8 hx
            rw [List.any_eq_true] at this
            obtain ⟨f, q1, q2⟩ := this
            simp only [isChunked, Bool.and_eq_true, decide_eq_true_eq] at q2
            exact absurd ⟨f, q1, q2⟩ hb3
        unfold afterHeaders
        rw [hch, if_neg (by simp)]
        rcases hcl : i.cl with _ | _ | n
        · simp only [hnb, if_true]
        · rfl
        · rw [hcl, hb2] at k3; simp at k3
    rw [ht, ← k4, ← k5]
    simp [finish, absTree, View.step, headView, finalView, hc, Content.trailers, Content.data, k7]
  · -- Content-Length
    obtain ⟨hh, hs⟩ := hok
    subst hh
    obtain ⟨⟨f, h1, h2⟩, h3, h4⟩ := id hs
    have hn := hsays f d.length h1 h2 h3 h4 rfl rfl
    obtain ⟨w, v, a, e1, e2, e3, e4⟩ := head_run ok.code.2 ok.reason ok.fields hn (by simpa using (hlen1 _ hs).symm) hu
    generalize hI : (⟨minorOf r.version, r.code, some d.length, false, false || r.fields.any (isConn "close"), false || r.fields.any (isConn "keep-alive")⟩ : Info) = I at e4
    have hI1 : I.code = r.code ∧ I.chunked = false ∧ I.cl = some d.length ∧ I.close = r.fields.any (isConn "close") ∧
        I.keepAlive = r.fields.any (isConn "keep-alive") := by
      rw [← hI]; simp
    have hI2 : I.closes = closesB r := by rw [← hI]; simp [Info.closes, closesB]
    rw [if_neg (by decide)] at e4
    simp only [afterHeaders, hI1, Bool.false_eq_true, if_false, Bool.false_or] at e4
    rcases List.eq_nil_or_concat d with rfl | ⟨d', c, rfl⟩
    · have hbytes : r.bytes = r.head := by simp [Response.bytes, hc, Content.bytes]
      refine ⟨w, 10, v, a, none, by rw [hbytes, e1], e2, by rw [e3]; simp, ?_⟩
      rw [hbytes, e4]
      simp [finish, absTree, View.step, headView, finalView, hc, Content.trailers, Content.data, hI2]
    · rw [List.concat_eq_append] at *
      have hbytes : r.bytes = r.head ++ (d' ++ [c]) := by simp [Response.bytes, hc, Content.bytes]
      simp only [List.length_append, List.length_cons, List.length_nil, Nat.zero_add, absTree] at e4
      obtain ⟨v', a', o', q1, q2⟩ := body_prefix (hr := answerTo false) (i := I) d' d'.length (0 + r.head.length)
        (headView r (r.fields.any (isConn "close")) (r.fields.any (isConn "keep-alive"))) (Nat.le_refl _)
      refine ⟨r.head ++ d', c, v', a', o', by rw [hbytes, List.append_assoc], run_then e4 q1, by rw [q2]; simp [headView], ?_⟩
      rw [hbytes]
      refine run_then e4 ?_
      have := body_all (hr := answerTo false) (i := I) (d' ++ [c]) (by simp) (0 + r.head.length)
        (headView r (r.fields.any (isConn "close")) (r.fields.any (isConn "keep-alive")))
      simp only [List.length_append, List.length_cons, List.length_nil, Nat.zero_add, Nat.add_sub_cancel] at this
      simp only [Nat.zero_add]
      rw [this]
      simp [View.step, frag, SpanK.ev, headView, finalView, hc, Content.trailers, Content.data, hI2]
  · -- chunked
    obtain ⟨hh, hl, hte, hcs, hls, hle, hts⟩ := hok
    subst hh
    have hn := hplain ⟨hl, .inl rfl⟩
    obtain ⟨w, v, a, e1, e2, e3, e4⟩ := head_run ok.code.2 ok.reason ok.fields hn (by simpa using (hlen0 hl).symm) hu
    have hany : r.fields.any isChunked = true := by
      obtain ⟨f, q1, q2, q3⟩ := hte
      rw [List.any_eq_true]
      exact ⟨f, q1, by simp [isChunked, q2, q3]⟩
    rw [hany] at e4
    generalize hI : (⟨minorOf r.version, r.code, none, false || true, false || r.fields.any (isConn "close"), false || r.fields.any (isConn "keep-alive")⟩ : Info) = I at e4
    have hI1 : I.code = r.code ∧ I.chunked = true ∧ I.close = r.fields.any (isConn "close") ∧ I.keepAlive = r.fields.any (isConn "keep-alive") := by
      rw [← hI]; simp
    have hI2 : I.closes = closesB r := by rw [← hI]; simp [Info.closes, closesB]
    rw [if_neg (by decide)] at e4
    simp only [afterHeaders, hI1, Bool.false_eq_true, if_false, if_true, absTree, Bool.false_or] at e4
    have hbytes : r.bytes = r.head ++ ((cs.map Chunk.bytes).flatten ++ ((ls ++ le ++ [13]) ++ ([10] ++ ((ts.map Field.line).flatten ++ [13])))) ++ [10] := by
      simp [Response.bytes, hc, Content.bytes, section_, crlf]
    generalize hV : ({ headView r (r.fields.any (isConn "close")) (r.fields.any (isConn "keep-alive")) with
      body := (headView r (r.fields.any (isConn "close")) (r.fields.any (isConn "keep-alive"))).body ++ (cs.map Chunk.data).flatten } : View) = V
    have hVp : V.pending = none := by rw [← hV]; rfl
    have hrun : run (answerTo false) 0 (View.empty, .live .start none)
        (r.head ++ ((cs.map Chunk.bytes).flatten ++ ((ls ++ le ++ [13]) ++ ([10] ++ ((ts.map Field.line).flatten ++ [13]))))) =
        (ts.foldl addField V, .live (.endLF I true (false || !ts.isEmpty)) none) := by
      refine run_then e4 (run_then (chunks_run cs hcs _ _) ?_)
      rw [hV]
      refine run_then (sizeLine_run hls hle _ _) (run_then (y := (V, .live (.hdr I true false) none)) rfl ?_)
      exact run_then (fields_run ts hts _ _ _ I _ (by rw [flush_none hVp]; exact hVp) rfl) rfl
    refine ⟨_, 10, _, _, none, hbytes, hrun, by rw [fold_state, ← hV]; simp [headView], ?_⟩
    rw [hbytes]
    refine run_then hrun ?_
    rw [run_cons]
    simp only [step, if_true, finish, absTree, run_nil]
    rw [fold_pending ts V hVp, ← hV]
    simp [View.step, headView, finalView, hc, Content.trailers, Content.data, hI2]

end CoreHttp.Ref

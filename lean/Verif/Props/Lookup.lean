import Verif.Props.Session
import Verif.Props.ReadHeader
import Verif.Ref.Lookup

/-! # C65: looking up the headers of a received response -/

namespace CoreHttp.Props
open CoreHttp Spec Ref
variable {σ : Type} {cfg : Cfg} {T : Transport σ} {send : σ → Bytes → Int × σ} {recv : σ → Nat → Int × Bytes × σ}
  {resp : Resp σ} {rh : ReqHeaders} {b rb : Nat} {body : Option Nat} {n : Nat} {flags : UInt32} {got rest : σ → Bytes}

/-- `f` is the first header field of the response with this name (letter case aside). -/
def FirstField (name : Bytes) (r : Response) (f : Field) : Prop :=
  ∃ pre post, r.fields = pre ++ f :: post ∧ sameName name f.name ∧ ∀ g ∈ pre, ¬ sameName name g.name

theorem firstField_named {name : Bytes} {r : Response} {f : Field} (h : FirstField name r f) :
    FirstNamed name (r.fields.map fun f => (f.name, f.value, r.code)) f.value := by
  obtain ⟨pre, post, h1, h2, h3⟩ := h
  refine ⟨pre.map fun f => (f.name, f.value, r.code), f.name, r.code, post.map fun f => (f.name, f.value, r.code), by simp [h1], h2, ?_⟩
  intro x hx
  obtain ⟨g, hg, rfl⟩ := List.mem_map.mp hx
  exact h3 g hg

/-- **C65, looking up.** In a buffer that begins with the status line and header section of a well-formed response, whatever follows: every field of the
header section is found by its name in any letter case; the outputs delimit the value of the first field with this name. -/
theorem C65_lookup {w : World PLog σ} {head : Bool} {r : Response} {name : Bytes} {f : Field} (hb : resp.pBuffer = some b)
    (hroom : resp.bufferLen ≤ (w.mem b).length) (ok : r.Ok head) (hlen : r.head.length ≤ resp.bufferLen) (hhd : (w.mem b).take r.head.length = r.head)
    (hname : name ≠ []) (hf : FirstField name r f) (l : Option Nat) (k : Nat) :
    ∃ l' k' w', HTTPClient_ReadHeader httpParser (some resp) (some name) (some l) (some k) w = (.ok (.success, some l', some k'), w') ∧
      w'.mem = w.mem ∧ Delimits (w.mem b) resp.bufferLen l' k' f.value := by
  have hpos : 0 < r.head.length := by simp only [Response.head, digits3, List.length_append, List.length_cons]; omega
  have hp : ReadPre true httpParser resp b name w.mem :=
    ⟨httpParser_ok, hb, by omega, hroom, List.length_pos_iff.mpr hname⟩
  have e0 : (w.mem b).take resp.bufferLen = r.head ++ ((w.mem b).take resp.bufferLen).drop r.head.length := by
    conv => lhs; rw [← List.take_append_drop r.head.length ((w.mem b).take resp.bufferLen)]
    rw [List.take_take, Nat.min_eq_left hlen, hhd]
  have hv := first_mono (firstField_named hf) (lookup_head ok (((w.mem b).take resp.bufferLen).drop r.head.length))
  rw [← e0] at hv
  obtain ⟨st, l', k', w', e, hmem, _⟩ := C55_safe hp l k
  obtain ⟨st1, l1, k1, w1, e1, h⟩ := readHeader_spec hp l k
  rw [e] at e1; cases e1
  rcases h with ⟨rfl, v, h1, h2⟩ | ⟨_, h, _⟩
  · rw [first_unique h1 hv] at h2
    exact ⟨l', k', w', e, hmem, h2⟩
  · exact absurd (first_has hv) h

/-- After the response: CR and LF are skipped, anything but an 'H' is an error. -/
theorem trailing {data more : Bytes} {cl : Bool} {v : View} {c : UInt8} (hc : c ≠ 13 ∧ c ≠ 10 ∧ c ≠ 72) (bl : Bytes) :
    (∀ x ∈ bl, x = 13 ∨ x = 10) → ∀ p, ∃ er, er ≠ .ok ∧
      ((Machine.sem (answers .noBody) 0 data (http.run p (bl ++ c :: more) (.complete cl) none) v).1,
       (Machine.sem (answers .noBody) 0 data (http.run p (bl ++ c :: more) (.complete cl) none) v).2.1) = (v, er) := by
  induction bl with
  | nil =>
    intro _ p
    simp only [List.nil_append, Machine.run, http, step]
    rw [if_neg (by simp [hc.1, hc.2.1])]
    cases cl with
    | true => exact ⟨.closedConnection, by simp, rfl⟩
    | false =>
      rw [if_neg (by simp), if_neg hc.2.2]
      exact ⟨.invalidConstant, by simp, rfl⟩
  | cons x bl ih =>
    intro h p
    have hx := h x List.mem_cons_self
    obtain ⟨er, h1, h2⟩ := ih (fun y hy => h y (List.mem_cons_of_mem _ hy)) (p + 1)
    refine ⟨er, h1, ?_⟩
    rw [← h2]
    simp only [List.cons_append, Machine.run]
    have : http.step (.complete cl) x = .done (.complete cl) := by
      have h0 : step (.complete cl) x = .done (.complete cl) := by simp only [step]; rw [if_pos hx]
      exact h0
    rw [this]
    rfl

/-- **C65.** After an exchange with a cooperative peer, every header field of the peer's response is found by its name, in any letter case, with its value;
also later, as long as the application leaves the response buffer and object as they are. -/
theorem C65_lookup_after_exchange {w : World PLog σ} {head : Bool} {r : Response}
    (hp : CallPre true httpParser cfg T send recv rh rb body n resp b w.mem)
    (ok : r.Ok head) (hreq : ReqIs head (headerBlock w.mem rh)) (hflag : ¬ headersOnly resp.respOptionFlags)
    (hfit : r.bytes.length ≤ resp.bufferLen) (hfit' : (wireHeaders (headerBlock w.mem rh) n flags.toNat).length ≤ rh.bufferLen)
    (hP : Peer (wireRequest w.mem rh body n flags) r.bytes got rest send recv resp) (hgot : got w.env = [])
    {fuel : Nat} (hf1 : rh.bufferLen ≤ fuel) (hf2 : n ≤ fuel) (hf3 : resp.bufferLen < fuel) :
    ∃ rh' resp' w1, HTTPClient_Send httpParser cfg fuel (some T) (some rh) body n (some resp) flags w = (.ok (.success, some rh', some resp'), w1) ∧
      ∀ name f, name ≠ [] → FirstField name r f → ∀ w2 : World PLog σ, w2.mem b = w1.mem b → ∀ l k,
        ∃ l' k' w3, HTTPClient_ReadHeader httpParser (some resp') (some name) (some l) (some k) w2 = (.ok (.success, some l', some k'), w3) ∧
          w3.mem = w2.mem ∧ Delimits (w2.mem b) resp.bufferLen l' k' f.value := by
  obtain ⟨rh', resp', w1, evs, e, _, _, _, _, _, hg⟩ := C58_exchange hp ok hreq hflag hfit hfit' hP hgot hf1 hf2 hf3
  refine ⟨rh', resp', w1, e, ?_⟩
  intro name f hn hf w2 hm l k
  obtain ⟨_, _, h1, h2, hs, _⟩ := send_leaves hp e
  cases h1; cases h2
  have hb : resp'.pBuffer = some b := hs.1.trans hp.buf
  have hbl : resp'.bufferLen = resp.bufferLen := hs.2.1
  have hlen : r.head.length ≤ resp.bufferLen := by
    have : r.bytes.length = r.head.length + r.content.bytes.length := by simp [Response.bytes]
    omega
  have hroom : resp.bufferLen ≤ (w1.mem b).length := by
    obtain ⟨_, _, e2, _, _, hs2, _⟩ := C60_safe (flags := flags) hp fuel
    rw [e] at e2; cases e2
    rw [hs2]; exact hp.room
  rw [← hbl]
  exact C65_lookup hb (by rw [hbl, hm]; exact hroom) ok (by rw [hbl]; exact hlen) (by rw [hm]; exact hg.head b hb) hn hf l k

/-- **C54**, why HTTPHeaderNotFound is rare: in a buffer that begins with the header section of a well-formed response and where the next byte that is not CR or LF
is not an 'H' (a body, or the zeros of a buffer that is larger than the response), looking up a header that the response does not have gives
HTTPInvalidResponse. -/
theorem C54_trailing_data {w : World PLog σ} {head : Bool} {r : Response} {name bl more : Bytes} {c : UInt8} (hb : resp.pBuffer = some b)
    (hroom : resp.bufferLen ≤ (w.mem b).length) (ok : r.Ok head) (hbl : ∀ x ∈ bl, x = 13 ∨ x = 10) (hc : c ≠ 13 ∧ c ≠ 10 ∧ c ≠ 72)
    (hbuf : (w.mem b).take resp.bufferLen = r.head ++ (bl ++ c :: more))
    (hname : name ≠ []) (hf : ∀ f ∈ r.fields, ¬ sameName name f.name) (l : Option Nat) (k : Nat) :
    ∃ w', HTTPClient_ReadHeader httpParser (some resp) (some name) (some l) (some k) w = (.ok (.invalidResponse, some l, some k), w') := by
  have hpos : 0 < resp.bufferLen := by
    have := congrArg List.length hbuf
    simp only [List.length_take, List.length_append, List.length_cons] at this
    omega
  have hp : ReadPre true httpParser resp b name w.mem := ⟨httpParser_ok, hb, hpos, hroom, List.length_pos_iff.mpr hname⟩
  obtain ⟨st, l', k', w', e, h1, h2, h3, h4⟩ := C54_partial hp l k
  obtain ⟨v, cl, g1, g2, g3⟩ := readAll_head ok (bl ++ c :: more)
  obtain ⟨er, her, hrun⟩ := trailing (data := r.head ++ (bl ++ c :: more)) (cl := cl) (v := v) (more := more) hc bl hbl r.head.length
  rw [hrun] at g3
  obtain ⟨g3, g4⟩ := Prod.mk.inj g3
  rw [← hbuf] at g3 g4
  have hno : ¬ HasName name (allHeaders (readAll httpParser ((w.mem b).take resp.bufferLen)).1) := by
    rintro ⟨x, hx, hs⟩
    unfold allHeaders at hx
    rw [g3, flush_none g2, g1] at hx
    obtain ⟨f, hf', rfl⟩ := List.mem_map.mp hx
    exact hf f hf' hs
  have : st = .invalidResponse := h2.mpr ⟨hno, .inl (by rw [g4]; exact her)⟩
  subst this
  obtain ⟨rfl, rfl⟩ := h4 (by simp)
  exact ⟨w', e⟩

def lkResp : Resp Unit := ⟨some 0, 0, none, .null, none, 0, none, 0, 200, 0, 0, 1, 0, 0⟩

theorem exHead_ok : exHead.Ok true := by
  refine ⟨by decide, by decide +kernel, ?_, ?_⟩
  · intro f hf
    simp only [exHead, List.mem_cons, List.not_mem_nil, or_false] at hf
    subst hf; exact fieldOk_of (by decide +kernel)
  · refine ⟨.inl rfl, .inr ⟨1000000, ⟨⟨ascii "Content-Length", ascii " ", ascii "1000000"⟩, by decide +kernel, by decide +kernel⟩, by decide, ?_⟩⟩
    intro f hf
    simp only [exHead, List.mem_cons, List.not_mem_nil, or_false] at hf
    subst hf; decide +kernel

/-- C65 and C54 apply: the header callback example's response, followed by zeros. -/
example (w : World PLog Unit) (hm : w.mem 0 = exHead.head ++ List.replicate 30 0) :
    (∃ l' k' w', HTTPClient_ReadHeader httpParser (some ({ lkResp with bufferLen := (exHead.head ++ List.replicate 30 0).length })) (some (ascii "content-LENGTH"))
      (some none) (some 0) w = (.ok (.success, some l', some k'), w') ∧ w'.mem = w.mem ∧
        Delimits (w.mem 0) (exHead.head ++ List.replicate 30 0).length l' k' (ascii "1000000")) ∧
    (∃ w', HTTPClient_ReadHeader httpParser (some ({ lkResp with bufferLen := (exHead.head ++ List.replicate 30 0).length })) (some (ascii "Content-Len"))
      (some none) (some 0) w = (.ok (.invalidResponse, some none, some 0), w')) := by
  refine ⟨?_, ?_⟩
  · refine C65_lookup (r := exHead) (head := true) (f := ⟨ascii "Content-Length", ascii " ", ascii "1000000"⟩) (b := 0) rfl (by rw [hm]; exact Nat.le_refl _) exHead_ok
      (by simp) (by rw [hm, List.take_left]) (by decide +kernel) ⟨[], [], rfl, ?_, by simp⟩ none 0
    exact (C56_compare _ _ 14 rfl rfl).2.mp (by decide +kernel)
  · refine C54_trailing_data (r := exHead) (head := true) (bl := []) (more := List.replicate 29 0) (c := 0) (b := 0) rfl (by rw [hm]; exact Nat.le_refl _) exHead_ok
      (by simp) (by decide) (by rw [hm, List.take_length]; rfl) (by decide +kernel) ?_ none 0
    intro f hf
    simp only [exHead, List.mem_cons, List.not_mem_nil, or_false] at hf
    subst hf
    intro h
    have := h.1
    revert this; decide +kernel

/-- C65 applies after the example exchange of C58: "transfer-ENCODING" is found in the response, also when it was received into the request's buffer. -/
example (q : Nat) (hq : q = 0 ∨ q = 1) (t : Nat) : ∃ rh' resp' w1 l' k' w3,
    HTTPClient_Send httpParser exCfg 300 (some (peerT (wireRequest xMem xReq (some 2) 5 0) exResponse.bytes)) (some xReq) (some 2) 5
      (some (peerResp q)) 0 ⟨(t, [], []), xMem, []⟩ = (.ok (.success, some rh', some resp'), w1) ∧
    HTTPClient_ReadHeader httpParser (some resp') (some (ascii "transfer-ENCODING")) (some none) (some 0) w1 = (.ok (.success, some l', some k'), w3) ∧
    Delimits (w1.mem q) 200 l' k' (ascii "Chunked") := by
  obtain ⟨rh', resp', w1, e, h⟩ := C65_lookup_after_exchange (w := (⟨(t, [], []), xMem, []⟩ : World PLog PeerEnv))
    (got := fun s => s.2.1) (rest := fun s => s.2.2)
    (flags := 0) (fuel := 300) (peerCallPre _ _ q hq) exResponse_ok (show ¬ ascii "HEAD" <+: headerBlock xMem xReq by decide +kernel)
    (show ¬ ((0 : UInt32).toNat % 2 = 1) by decide) (show exResponse.bytes.length ≤ 200 by decide +kernel)
    (show (wireHeaders (headerBlock xMem xReq) 5 (UInt32.toNat 0)).length ≤ 60 by decide +kernel) (peer_ok _ _ q) rfl (by decide) (by decide)
    (show 200 < 300 by decide)
  obtain ⟨l', k', w3, h1, _, h3⟩ := h (ascii "transfer-ENCODING") ⟨ascii "TRANSFER-encoding", ascii "\t", ascii "Chunked"⟩ (by decide +kernel)
    ⟨[⟨ascii "Server", ascii " ", ascii "x y"⟩], [⟨ascii "Connection", [], ascii "close"⟩], rfl,
      (C56_compare _ _ 17 rfl rfl).2.mp (by decide +kernel), by
        intro g hg h
        simp only [List.mem_cons, List.not_mem_nil, or_false] at hg
        subst hg
        have := h.1
        revert this; decide +kernel⟩ w1 rfl none 0
  exact ⟨rh', resp', w1, l', k', w3, e, h1, h3⟩

end CoreHttp.Props

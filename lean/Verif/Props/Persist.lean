import Verif.Spec.Persist
import Verif.Props.Session

/-! # C105: does the connection stay open? -/

namespace CoreHttp.Props
open CoreHttp Spec Ref Machine
variable {σ : Type} {cfg : Cfg} {T : Transport σ} {send : σ → Bytes → Int × σ} {recv : σ → Nat → Int × Bytes × σ} {resp : Resp σ} {rh : ReqHeaders}
  {b rb : Nat} {body : Option Nat} {n : Nat} {flags : UInt32} {got rest : σ → Bytes}

/-- **C105, the part that holds.** When the server speaks HTTP/1.1, the flag HTTP_RESPONSE_CONNECTION_CLOSE_FLAG tells whether it will close the connection; when it
speaks HTTP/1.0, it will keep it open if HTTP_RESPONSE_CONNECTION_KEEP_ALIVE_FLAG is set and the other is not. (Missing: which of the two it is, the call does not
report; see `C105_refuted`.) -/
theorem C105_flags_partial {w : World PLog σ} {head : Bool} {r : Response}
    (hp : CallPre true httpParser cfg T send recv rh rb body n resp b w.mem)
    (ok : r.Ok head) (hreq : ReqIs head (headerBlock w.mem rh)) (hflag : ¬ headersOnly resp.respOptionFlags)
    (hfit : r.bytes.length ≤ resp.bufferLen) (hfit' : (wireHeaders (headerBlock w.mem rh) n flags.toNat).length ≤ rh.bufferLen)
    (hP : Peer (wireRequest w.mem rh body n flags) r.bytes got rest send recv resp) (hgot : got w.env = [])
    {fuel : Nat} (hf1 : rh.bufferLen ≤ fuel) (hf2 : n ≤ fuel) (hf3 : resp.bufferLen < fuel) :
    ∃ rh' resp' w', HTTPClient_Send httpParser cfg fuel (some T) (some rh) body n (some resp) flags w = (.ok (.success, some rh', some resp'), w') ∧
      (r.version = .v11 → (r.closes ↔ bit resp'.respFlags 0)) ∧
      (r.version = .v10 → (r.closes ↔ bit resp'.respFlags 0 ∨ ¬ bit resp'.respFlags 1)) := by
  obtain ⟨rh', resp', w', evs, e, _, _, _, _, _, h⟩ := C58_exchange hp ok hreq hflag hfit hfit' hP hgot hf1 hf2 hf3
  refine ⟨rh', resp', w', e, fun hv => ?_, fun hv => ?_⟩
  · rw [h.close]; unfold Response.closes; rw [hv]; simp
  · rw [h.close, h.keepAlive]; unfold Response.closes; rw [hv]; simp

/-- **C105, looking into the buffer.** An application that looks at the first eight bytes of the response buffer, where the status line is, can tell: the server will
close the connection exactly if the close flag is set, or the buffer begins with "HTTP/1.0" and the keep-alive flag is not set. -/
theorem C105_by_version {w : World PLog σ} {head : Bool} {r : Response}
    (hp : CallPre true httpParser cfg T send recv rh rb body n resp b w.mem)
    (ok : r.Ok head) (hreq : ReqIs head (headerBlock w.mem rh)) (hflag : ¬ headersOnly resp.respOptionFlags)
    (hfit : r.bytes.length ≤ resp.bufferLen) (hfit' : (wireHeaders (headerBlock w.mem rh) n flags.toNat).length ≤ rh.bufferLen)
    (hP : Peer (wireRequest w.mem rh body n flags) r.bytes got rest send recv resp) (hgot : got w.env = [])
    {fuel : Nat} (hf1 : rh.bufferLen ≤ fuel) (hf2 : n ≤ fuel) (hf3 : resp.bufferLen < fuel) :
    ∃ rh' resp' w', HTTPClient_Send httpParser cfg fuel (some T) (some rh) body n (some resp) flags w = (.ok (.success, some rh', some resp'), w') ∧
      (r.closes ↔ bit resp'.respFlags 0 ∨ (ascii "HTTP/1.0" <+: w'.mem b ∧ ¬ bit resp'.respFlags 1)) := by
  obtain ⟨rh', resp', w', evs, e, _, _, _, _, _, h⟩ := C58_exchange hp ok hreq hflag hfit hfit' hP hgot hf1 hf2 hf3
  refine ⟨rh', resp', w', e, ?_⟩
  have hb : resp'.pBuffer = some b := by
    obtain ⟨_, _, _, e2, hs, _⟩ := send_leaves hp e
    cases e2
    exact hs.1.trans hp.buf
  have hv : ascii "HTTP/1.0" <+: w'.mem b ↔ r.version = .v10 := by
    have h1 := h.head b hb
    have h2 : r.version.text <+: w'.mem b := by
      refine List.IsPrefix.trans ?_ (List.take_prefix r.head.length _)
      rw [h1]
      unfold Response.head
      simp only [List.append_assoc]
      exact List.prefix_append _ _
    cases hr : r.version with
    | v10 =>
      rw [hr] at h2
      exact ⟨fun _ => rfl, fun _ => List.IsPrefix.trans ⟨[32], by decide⟩ h2⟩
    | v11 =>
      rw [hr] at h2
      refine ⟨fun h3 => ?_, fun h3 => (nomatch h3)⟩
      have h4 := List.prefix_of_prefix_length_le h3 h2 (by decide)
      exact absurd h4 (by decide)
  rw [h.close, h.keepAlive, hv]
  rfl

/-- A response without a Connection header, of HTTP/1.0 or HTTP/1.1. -/
def plain (v : Version) : Response := ⟨v, 200, ascii "OK", [⟨ascii "Content-Length", ascii " ", ascii "2"⟩], .length (ascii "hi")⟩

theorem plain_ok (v : Version) : (plain v).Ok false := by
  refine ⟨(show 100 ≤ 200 ∧ 200 ≤ 999 by decide), (show ∀ c ∈ ascii "OK", c ≠ 13 ∧ c ≠ 10 by decide), ?_, ?_⟩
  · intro f hf
    simp only [plain, List.mem_cons, List.not_mem_nil, or_false] at hf
    subst hf; exact fieldOk_of (by decide +kernel)
  · refine ⟨rfl, ⟨⟨ascii "Content-Length", ascii " ", ascii "2"⟩, by cases v <;> decide +kernel, by decide +kernel⟩, by decide, ?_⟩
    intro f hf
    simp only [plain, List.mem_cons, List.not_mem_nil, or_false] at hf
    subst hf; decide +kernel

theorem plain_connection (v : Version) (s : String) : ¬ (plain v).connection s := by
  rintro ⟨f, hf, h6, _⟩
  simp only [plain, List.mem_cons, List.not_mem_nil, or_false] at hf
  subst hf; revert h6; decide +kernel

/-- The exchange of `C105_refuted`. -/
def plainRun (v : Version) := HTTPClient_Send httpParser exCfg 300 (some (peerT (wireRequest xMem xReq (some 2) 5 0) (plain v).bytes)) (some xReq) (some 2) 5
  (some (peerResp 1)) 0 ⟨(0, [], []), xMem, []⟩

/-- What it reports. -/
def plainReport (v : Version) : Option Report :=
  match plainRun v with
  | (.ok (_, _, some resp'), w') => some (report w'.log w'.mem resp')
  | _ => none

theorem plain_same : plainReport .v10 = plainReport .v11 := by decide +kernel

/-- **C105 is false of the code.** There is no way to tell from what HTTPClient_Send reports – status code, flags, headers, body and their places – whether the
server will close the connection: a server that speaks HTTP/1.0 closes it after the response "HTTP/1.0 200 OK", "Content-Length: 2", "hi", a server that speaks
HTTP/1.1 keeps it open after the same response with "HTTP/1.1", and everything reported is the same. -/
theorem C105_refuted : ¬ ∃ closing : Report → Prop, ∀ (r : Response) (rh' : ReqHeaders) (resp' : Resp PeerEnv) (w' : World PLog PeerEnv), r.Ok false →
    HTTPClient_Send httpParser exCfg 300 (some (peerT (wireRequest xMem xReq (some 2) 5 0) r.bytes)) (some xReq) (some 2) 5
      (some (peerResp 1)) 0 ⟨(0, [], []), xMem, []⟩ = (.ok (.success, some rh', some resp'), w') →
    (r.closes ↔ closing (report w'.log w'.mem resp')) := by
  rintro ⟨closing, h⟩
  have key : ∀ v, ∃ x, plainReport v = some x ∧ ((plain v).closes ↔ closing x) := by
    intro v
    obtain ⟨rh', resp', w', evs, e, _⟩ := C58_exchange (r := plain v) (w := (⟨(0, [], []), xMem, []⟩ : World PLog PeerEnv))
      (flags := 0) (fuel := 300) (peerCallPre _ _ 1 (.inr rfl)) (plain_ok v) (show ¬ ascii "HEAD" <+: headerBlock xMem xReq by decide +kernel)
      (show ¬ ((0 : UInt32).toNat % 2 = 1) by decide) (show (plain v).bytes.length ≤ 200 by cases v <;> decide +kernel)
      (show (wireHeaders (headerBlock xMem xReq) 5 (UInt32.toNat 0)).length ≤ 60 by decide +kernel) (peer_ok _ _ 1) rfl (by decide) (by decide)
      (show 200 < 300 by decide)
    refine ⟨report w'.log w'.mem resp', ?_, h (plain v) rh' resp' w' (plain_ok v) e⟩
    unfold plainReport plainRun
    rw [e]
  obtain ⟨x, hx, h1⟩ := key .v10
  obtain ⟨y, hy, h2⟩ := key .v11
  have : x = y := by
    have h3 := plain_same
    rw [hx, hy] at h3
    exact Option.some.inj h3
  subst this
  have c10 : (plain .v10).closes := .inr ⟨rfl, plain_connection _ _⟩
  have c11 : ¬ (plain .v11).closes := by
    rintro (h3 | ⟨h3, _⟩)
    · exact plain_connection _ _ h3
    · cases h3
  exact c11 (h2.mpr (h1.mp c10))

/-- A concrete case for the other two theorems: the HTTP/1.0 response above is recognised as closing by the version in the buffer. -/
example : ∃ rh' resp' w', plainRun .v10 = (.ok (.success, some rh', some resp'), w') ∧ (plain .v10).closes ∧ ascii "HTTP/1.0" <+: w'.mem 1 ∧
    ¬ bit resp'.respFlags 0 ∧ ¬ bit resp'.respFlags 1 := by
  obtain ⟨rh', resp', w', e, _, h⟩ := C105_flags_partial (r := plain .v10) (w := (⟨(0, [], []), xMem, []⟩ : World PLog PeerEnv))
    (flags := 0) (fuel := 300) (peerCallPre _ _ 1 (.inr rfl)) (plain_ok _) (show ¬ ascii "HEAD" <+: headerBlock xMem xReq by decide +kernel)
    (show ¬ ((0 : UInt32).toNat % 2 = 1) by decide) (show (plain .v10).bytes.length ≤ 200 by decide +kernel)
    (show (wireHeaders (headerBlock xMem xReq) 5 (UInt32.toNat 0)).length ≤ 60 by decide +kernel) (peer_ok _ _ 1) rfl (by decide) (by decide)
    (show 200 < 300 by decide)
  obtain ⟨_, _, _, e', h'⟩ := C105_by_version (r := plain .v10) (w := (⟨(0, [], []), xMem, []⟩ : World PLog PeerEnv))
    (flags := 0) (fuel := 300) (peerCallPre _ _ 1 (.inr rfl)) (plain_ok _) (show ¬ ascii "HEAD" <+: headerBlock xMem xReq by decide +kernel)
    (show ¬ ((0 : UInt32).toNat % 2 = 1) by decide) (show (plain .v10).bytes.length ≤ 200 by decide +kernel)
    (show (wireHeaders (headerBlock xMem xReq) 5 (UInt32.toNat 0)).length ≤ 60 by decide +kernel) (peer_ok _ _ 1) rfl (by decide) (by decide)
    (show 200 < 300 by decide)
  rw [e] at e'; cases e'
  have c10 : (plain .v10).closes := .inr ⟨rfl, plain_connection _ _⟩
  have hflags : ∀ x, plainReport .v10 = some x → ¬ bit x.respFlags 0 := by
    intro x hx
    have h0 : (plainReport .v10).map (·.respFlags) = some 0 := by decide +kernel
    rw [hx] at h0
    rw [show x.respFlags = 0 from Option.some.inj h0]; unfold bit; decide
  have hn : ¬ bit resp'.respFlags 0 := hflags (report w'.log w'.mem resp') (by unfold plainReport plainRun; rw [e])
  have h1 := (h'.mp c10).resolve_left hn
  exact ⟨rh', resp', w', e, c10, h1.1, hn, h1.2⟩

end CoreHttp.Props

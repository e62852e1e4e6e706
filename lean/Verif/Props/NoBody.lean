import Verif.Props.Incomplete
import Verif.Props.Interim

/-! # C80: responses that never have a body (status 1xx, 204, 304)

llhttp, whose rule the reference parser follows, lets a Content-Length decide before the status does. -/

namespace CoreHttp.Props
open CoreHttp Spec Ref Machine
variable {σ : Type} {cfg : Cfg} {T : Transport σ} {send : σ → Bytes → Int × σ} {recv : σ → Nat → Int × Bytes × σ} {rh : ReqHeaders} {rb b n : Nat}
  {body : Option Nat} {resp : Resp σ} {flags : UInt32} {got rest : σ → Bytes}

/-- **C80, partial.** For every response with status 1xx, 204 or 304 (to a request that is not HEAD) whose header section does not state a body (missing:
those that state one), and every peer that accepts the request and sends it, in pieces of any size: HTTPClient_Send returns HTTPSuccess after the header
section, and reports an empty body. -/
theorem C80_no_body_partial {w : World PLog σ} {r : Response}
    (hp : CallPre true httpParser cfg T send recv rh rb body n resp b w.mem)
    (hcode : 100 ≤ r.code) (hreason : ∀ c ∈ r.reason, c ≠ 13 ∧ c ≠ 10) (hfields : ∀ f ∈ r.fields, FieldOk f)
    (hbodiless : r.bodiless) (hnone : r.content = .none) (hlength : r.lengths = [] ∨ r.SaysLength 0) (hchunked : ¬ r.saysChunked)
    (hreq : ReqIs false (headerBlock w.mem rh)) (hflag : ¬ headersOnly resp.respOptionFlags)
    (hfit : r.head.length ≤ resp.bufferLen) (hfit' : (wireHeaders (headerBlock w.mem rh) n flags.toNat).length ≤ rh.bufferLen)
    (hP : Peer (wireRequest w.mem rh body n flags) r.head got rest send recv resp) (hgot : got w.env = [])
    {fuel : Nat} (hf1 : rh.bufferLen ≤ fuel) (hf2 : n ≤ fuel) (hf3 : resp.bufferLen < fuel) :
    ∃ rh' resp' w' evs, HTTPClient_Send httpParser cfg fuel (some T) (some rh) body n (some resp) flags w = (.ok (.success, some rh', some resp'), w') ∧
      w'.log = w.log ++ evs ∧ received evs = r.head ∧ resp'.statusCode = r.code ∧ resp'.bodyLen = 0 := by
  have hb : r.bytes = r.head := by simp [Response.bytes, hnone, Content.bytes]
  have hst : r.statedLength = 0 := by
    rcases hlength with h | ⟨⟨f, h1, h2⟩, _⟩
    · unfold Response.statedLength; rw [h]
    · unfold Response.statedLength; rw [h1]; simp [h2]
  have ok : r.Ok false := by
    refine ⟨⟨hcode, ?_⟩, hreason, hfields, ?_⟩
    · have h := hbodiless; unfold Response.bodiless at h; omega
    · rw [hnone]
      exact ⟨.inr ⟨hbodiless, hst, hchunked⟩, hlength.elim .inl fun h => .inr ⟨0, h⟩⟩
  rw [← hb] at hP hfit ⊢
  obtain ⟨rh', resp', w', evs, h1, h2, _, _, _, h4, h5⟩ := C58_exchange hp ok hreq hflag hfit hfit' hP hgot hf1 hf2 hf3
  exact ⟨rh', resp', w', evs, h1, h2, h4, h5.statusCode, by rw [h5.bodyLen, hnone]; rfl⟩

/-- **C80, what happens instead.** For every response with status 1xx, 204 or 304 whose header section states a length other than 0 (a 304 response may:
RFC 9110 section 8.6), and every history in which the network delivers it and nothing after it: the receiving call does not return HTTPSuccess. It
returns HTTPNoResponse, HTTPPartialResponse or HTTPInsufficientMemory, and has reported the whole header section if it returns HTTPPartialResponse after
having received all of it. -/
theorem C80_waits_for_a_body {w : World PLog σ} {r : Response} {k : Nat} (hp : RecvPre true httpParser cfg T recv resp rh b rb w.mem)
    (hcode : 100 ≤ r.code) (hreason : ∀ c ∈ r.reason, c ≠ 13 ∧ c ≠ 10) (hfields : ∀ f ∈ r.fields, FieldOk f)
    (hbodiless : r.bodiless) (hlength : r.SaysLength (k + 1))
    (hreq : ReqIs false (headerBlock w.mem rh)) (hflag : ¬ headersOnly resp.respOptionFlags) (fuel : Nat) :
    ∃ res w' t0 evs, HTTPClient_ReceiveAndParseHttpResponse httpParser cfg fuel (some T) (some resp) (some rh) w = (res, w') ∧
      w'.log = w.log ++ .time t0 :: evs ∧
      (Delivers r.head evs → ∀ st resp', res = .ok (st, resp') →
        (st = .noResponse ∧ received evs = []) ∨
        (st = .partialResponse ∧ (received evs = r.head → resp'.statusCode = r.code)) ∨
        (st = .insufficientMemory ∧ (received evs).length = resp.bufferLen)) := by
  let r' : Response := { r with content := .length (List.replicate (k + 1) 0) }
  have hb : r'.bytes = r.head ++ List.replicate (k + 1) 0 := rfl
  have ok : r'.Ok false := by
    refine ⟨⟨hcode, ?_⟩, hreason, hfields, ?_⟩
    · have h := hbodiless; unfold Response.bodiless at h; show r.code ≤ 999; omega
    · exact ⟨rfl, by rw [List.length_replicate]; exact hlength⟩
  obtain ⟨res, w', t0, evs, h1, h2, h3⟩ := C68_incomplete_receive hp ok hreq hflag fuel
  refine ⟨res, w', t0, evs, h1, h2, fun hd st resp' hr => ?_⟩
  have hd' : Delivers r'.bytes evs := by
    intro pre off len ret data post he
    obtain ⟨g1, g2⟩ := hd pre off len ret data post he
    exact ⟨g1, g2.trans (by rw [hb]; exact List.prefix_append _ _)⟩
  have hpre := (delivers_prefix evs hd).length_le
  have hlen := congrArg List.length hb
  simp only [List.length_append, List.length_replicate] at hlen
  rcases h3 hd' st resp' hr with ⟨_, h4, _⟩ | ⟨_, h4, ⟨h5, h6⟩ | ⟨_, h5, _⟩⟩
  · rw [h4] at hpre; omega
  · exact .inr (.inr ⟨h5, h6⟩)
  · by_cases hz : received evs = []
    · rw [if_pos hz] at h5; exact .inl ⟨h5, hz⟩
    · rw [if_neg hz] at h5
      exact .inr (.inl ⟨h5, fun h => (h4.head (by rw [h]; exact List.prefix_refl _)).statusCode⟩)

/-- A 304 response with the Content-Length of what it says is not modified meets the hypotheses of `C80_waits_for_a_body`. -/
def ex304Length : Response := ⟨.v11, 304, ascii "Not Modified", [⟨ascii "Content-Length", ascii " ", ascii "5"⟩], .none⟩
example : ex304Length.bodiless ∧ ex304Length.SaysLength (4 + 1) ∧ (∀ f ∈ ex304Length.fields, FieldOk f) ∧
    ex304Length.head = ascii "HTTP/1.1 304 Not Modified\r\nContent-Length: 5\r\n\r\n" := by
  refine ⟨.inr (.inr rfl), ⟨⟨_, rfl, by decide +kernel⟩, by decide, ?_⟩, ?_, by decide +kernel⟩
  · intro f hf
    simp only [ex304Length, List.mem_singleton] at hf
    subst hf; decide +kernel
  · intro f hf
    simp only [ex304Length, List.mem_singleton] at hf
    subst hf; exact ⟨by decide +kernel, by decide +kernel, by decide +kernel, by decide +kernel⟩

/-- **C80 is false of the code, with a parser that follows llhttp's rule.** The response is there, but HTTPClient_Send waits for a body that never comes,
and returns HTTPPartialResponse. -/
theorem C80_refuted :
    (seen (exRun exGet 200 0 [ex304Length.head])).map (fun s => (s.st, s.statusCode)) = some (.partialResponse, 304) := by decide +kernel

/-- When more comes on the connection, that is taken as the body. -/
theorem C80_refuted_joined :
    twoExchanges [ex304Length.head ++ ascii "HTTP/1.1 200 OK\r\nContent-Length: 6\r\n\r\nsecond"] ≠
      some ((.success, 304, []), (.success, 200, ascii "second")) ∧
    (seen (exRun exGet 200 0 [ex304Length.head, ascii "HTTP/"])).map (fun s => (s.st, s.statusCode, s.body)) = some (.success, 304, ascii "HTTP/") := by
  decide +kernel

/-- Without Content-Length the response is complete. -/
example : (seen (exRun exGet 200 0 [ex304.head])).map (fun s => (s.st, s.statusCode)) = some (.success, 304) := by decide +kernel

end CoreHttp.Props

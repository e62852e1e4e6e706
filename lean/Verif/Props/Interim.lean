import Verif.Props.Exchange
import Verif.Props.ReceiveEx

/-! # C79: interim responses (status 1xx) before the response -/

namespace CoreHttp.Props
open CoreHttp Spec Ref Machine
variable {σ : Type} {cfg : Cfg} {T : Transport σ} {send : σ → Bytes → Int × σ} {recv : σ → Nat → Int × Bytes × σ} {rh : ReqHeaders} {rb b n : Nat}
  {body : Option Nat} {resp : Resp σ} {flags : UInt32} {got rest : σ → Bytes}

/-- **C79, partial.** With a peer that answers with one response whose status is not 1xx (missing: interim responses before it), that is the response
HTTPClient_Send returns, and nothing is left over for the next exchange. -/
theorem C79_final_partial {w : World PLog σ} {head : Bool} {r : Response}
    (hp : CallPre true httpParser cfg T send recv rh rb body n resp b w.mem)
    (ok : r.Ok head) (hfinal : 200 ≤ r.code) (hreq : ReqIs head (headerBlock w.mem rh)) (hflag : ¬ headersOnly resp.respOptionFlags)
    (hfit : r.bytes.length ≤ resp.bufferLen) (hfit' : (wireHeaders (headerBlock w.mem rh) n flags.toNat).length ≤ rh.bufferLen)
    (hP : Peer (wireRequest w.mem rh body n flags) r.bytes got rest send recv resp) (hgot : got w.env = [])
    {fuel : Nat} (hf1 : rh.bufferLen ≤ fuel) (hf2 : n ≤ fuel) (hf3 : resp.bufferLen < fuel) :
    ∃ rh' resp' w' evs, HTTPClient_Send httpParser cfg fuel (some T) (some rh) body n (some resp) flags w = (.ok (.success, some rh', some resp'), w') ∧
      w'.log = w.log ++ evs ∧ rest w'.env = [] ∧ resp'.statusCode = r.code ∧ 200 ≤ resp'.statusCode ∧
      Got cfg r resp.pHeaderParsingCallback.isSome evs w'.mem resp' := by
  obtain ⟨rh', resp', w', evs, h1, h2, _, h3, _, _, h4⟩ := C58_exchange hp ok hreq hflag hfit hfit' hP hgot hf1 hf2 hf3
  exact ⟨rh', resp', w', evs, h1, h2, h3, h4.statusCode, by rw [h4.statusCode]; exact hfinal, h4⟩

/-- **C79, what happens instead.** For every interim response and every history in which it arrives by itself (nothing of the response proper in the same
receive call): when HTTPClient_Send returns HTTPSuccess, it returns the interim response; only the bytes of the interim response have been received, so that
the response proper is still to come when the application has been told that the exchange is over. -/
theorem C79_interim_is_returned {w : World PLog σ} {head : Bool} {r : Response}
    (hp : CallPre true httpParser cfg T send recv rh rb body n resp b w.mem)
    (ok : r.Ok head) (hinterim : r.code < 200) (hreq : ReqIs head (headerBlock w.mem rh)) (hflag : ¬ headersOnly resp.respOptionFlags)
    (hfit : r.bytes.length ≤ resp.bufferLen) (fuel : Nat) :
    ∃ res w' evs, HTTPClient_Send httpParser cfg fuel (some T) (some rh) body n (some resp) flags w = (res, w') ∧ w'.log = w.log ++ evs ∧
      (Delivers r.bytes evs → ∀ rh' resp', res = .ok (.success, rh', some resp') →
        resp'.statusCode = r.code ∧ resp'.statusCode < 200 ∧ received evs = r.bytes) := by
  obtain ⟨res, w', evs, h1, h2, h3⟩ := C58_round_trip (flags := flags) hp ok hreq hflag hfit fuel
  refine ⟨res, w', evs, h1, h2, fun hd rh' resp' hr => ?_⟩
  rcases h3 hd _ rh' resp' hr with ⟨h4, _⟩ | ⟨_, _, h5, h6⟩ | ⟨_, h4, _⟩
  · rcases h4 with h4 | h4 <;> cases h4
  · exact ⟨h6.statusCode, by rw [h6.statusCode]; exact hinterim, h5⟩
  · rcases h4 with h4 | h4 <;> cases h4

/-- What the application sees of two exchanges with the same objects: status, status code and body of each. -/
def twoExchanges (s : List Bytes) : Option ((Status × Nat × Bytes) × (Status × Nat × Bytes)) :=
  match HTTPClient_Send httpParser exCfg 100 (some scriptT) (some (exReq exGet)) none 0 (some (exResp 200 0)) 0 ⟨(0, s), exRMem exGet 200, []⟩ with
  | (.ok (st1, some rq, some rs), w1) =>
    match HTTPClient_Send httpParser exCfg 100 (some scriptT) (some rq) none 0 (some rs) 0 w1 with
    | (.ok (st2, _, some rs2), w2) => some ((st1, rs.statusCode, bodyBytes w1.mem rs), (st2, rs2.statusCode, bodyBytes w2.mem rs2))
    | _ => none
  | _ => none

/-- **C79 is false of the code.** The server sends an interim response (103) and the response to the first request, and the response to the second. The
interim response is returned as the response to the first request, with HTTPSuccess; then the response to the *first* request is returned as the
response to the second one, with HTTPSuccess. -/
theorem C79_refuted :
    twoExchanges [ascii "HTTP/1.1 103 Early Hints\r\nLink: x\r\n\r\n", ascii "HTTP/1.1 200 OK\r\nContent-Length: 5\r\n\r\nfirst",
      ascii "HTTP/1.1 200 OK\r\nContent-Length: 6\r\n\r\nsecond"] =
      some ((.success, 103, []), (.success, 200, ascii "first")) := by decide +kernel

/-- Without the interim response each request gets its response. -/
example :
    twoExchanges [ascii "HTTP/1.1 200 OK\r\nContent-Length: 5\r\n\r\nfirst", ascii "HTTP/1.1 200 OK\r\nContent-Length: 6\r\n\r\nsecond"] =
      some ((.success, 200, ascii "first"), (.success, 200, ascii "second")) := by decide +kernel

/-- When the interim response arrives in the same receive call as the response, its headers are reported as headers of the response. -/
theorem C79_refuted_joined :
    ∃ s, seen (exRun exGet 200 0 [ascii "HTTP/1.1 103 E\r\nLink: x\r\n\r\nHTTP/1.1 200 OK\r\nContent-Length: 2\r\n\r\nab"]) = some s ∧
      s.st = .success ∧ s.statusCode = 200 ∧ s.headerCount = 2 ∧
      s.headers = [(ascii "Link", ascii "x", 103), (ascii "Content-Length", ascii "2", 200)] :=
  ⟨(seen (exRun exGet 200 0 [ascii "HTTP/1.1 103 E\r\nLink: x\r\n\r\nHTTP/1.1 200 OK\r\nContent-Length: 2\r\n\r\nab"])).getD
    ⟨.success, 0, [], 0, none, 0, [], 0, 0, 0⟩, by decide +kernel⟩

/-- An interim response that meets the hypotheses of `C79_interim_is_returned`. -/
def exInterim : Response := ⟨.v11, 103, ascii "Early Hints", [⟨ascii "Link", ascii " ", ascii "x"⟩], .none⟩
theorem exInterim_ok : exInterim.Ok false ∧ exInterim.code < 200 ∧ exInterim.bytes = ascii "HTTP/1.1 103 Early Hints\r\nLink: x\r\n\r\n" := by
  refine ⟨⟨by decide, by decide, ?_, ?_⟩, by decide, by decide⟩
  · intro f hf
    simp only [exInterim, List.mem_singleton] at hf
    subst hf
    exact ⟨by decide, by decide, by decide, by decide⟩
  · exact ⟨.inr ⟨.inl (by decide), by decide, by rintro ⟨f, h, h1, _⟩; simp only [exInterim, List.mem_singleton] at h; subst h; revert h1; decide +kernel⟩,
      .inl (by decide)⟩

end CoreHttp.Props

import Verif.Spec.Reuse
import Verif.Props.Incomplete
import Verif.Props.Interim

/-! # C106: may the connection be used again? -/

namespace CoreHttp.Props
open CoreHttp Spec Ref Machine
variable {σ : Type} {cfg : Cfg} {T : Transport σ} {send : σ → Bytes → Int × σ} {recv : σ → Nat → Int × Bytes × σ} {rh : ReqHeaders} {rb b n : Nat}
  {body : Option Nat} {resp : Resp σ} {flags : UInt32} {got rest : σ → Bytes}

/-- **C106, partial.** With a peer that accepts the request and delivers one response, in pieces of any size (missing: a peer that falls silent): the status
is HTTPSuccess or HTTPInsufficientMemory, neither of which is in the list; after HTTPSuccess nothing of the response is left in the connection, so that the
next request finds it as the first one did; after HTTPInsufficientMemory the rest of the response, at least one byte, is still in the connection, where the
next call of HTTPClient_Send takes it for the beginning of the response to the next request. -/
theorem C106_success_partial {w : World PLog σ} {head : Bool} {r : Response}
    (hp : CallPre true httpParser cfg T send recv rh rb body n resp b w.mem)
    (ok : r.Ok head) (hreq : ReqIs head (headerBlock w.mem rh)) (hflag : ¬ headersOnly resp.respOptionFlags)
    (hfit' : (wireHeaders (headerBlock w.mem rh) n flags.toNat).length ≤ rh.bufferLen)
    (hP : Peer (wireRequest w.mem rh body n flags) r.bytes got rest send recv resp) (hgot : got w.env = [])
    {fuel : Nat} (hf1 : rh.bufferLen ≤ fuel) (hf2 : n ≤ fuel) (hf3 : resp.bufferLen < fuel) :
    ∃ st rh' resp' w', HTTPClient_Send httpParser cfg fuel (some T) (some rh) body n (some resp) flags w = (.ok (st, some rh', some resp'), w') ∧
      st ∉ saysClose ∧ (st = .success ↔ rest w'.env = []) ∧ (st ≠ .success → st = .insufficientMemory ∧ rest w'.env = r.bytes.drop resp.bufferLen) := by
  by_cases hfit : r.bytes.length ≤ resp.bufferLen
  · obtain ⟨rh', resp', w', evs, h1, _, _, h3, _⟩ := C58_exchange hp ok hreq hflag hfit hfit' hP hgot hf1 hf2 hf3
    exact ⟨_, rh', resp', w', h1, by decide, ⟨fun _ => h3, fun _ => rfl⟩, fun h => absurd rfl h⟩
  · obtain ⟨rh', resp', w', evs, h1, _, _, h3, _⟩ := C68_exchange hp ok hreq hflag (by omega) hfit' hP hgot hf1 hf2 hf3
    refine ⟨_, rh', resp', w', h1, by decide, ⟨(fun h => nomatch h), fun h => ?_⟩, fun _ => ⟨rfl, h3⟩⟩
    rw [h3] at h
    have := congrArg List.length h
    simp only [List.length_drop, List.length_nil] at this
    omega

/-- What the application sees of two requests over one connection, with a response buffer of `len` bytes and the same objects: status, status code and body
of each. -/
def reuse (len : Nat) (s : List Bytes) : Option ((Status × Nat × Bytes) × (Status × Nat × Bytes)) :=
  match HTTPClient_Send httpParser exCfg 100 (some scriptT) (some (exReq exGet)) none 0 (some (exResp len 0)) 0 ⟨(0, s), exRMem exGet len, []⟩ with
  | (.ok (st1, some rq, some rs), w1) =>
    match HTTPClient_Send httpParser exCfg 100 (some scriptT) (some rq) none 0 (some rs) 0 w1 with
    | (.ok (st2, _, some rs2), w2) => some ((st1, rs.statusCode, bodyBytes w1.mem rs), (st2, rs2.statusCode, bodyBytes w2.mem rs2))
    | _ => none
  | _ => none

/-- A response with a body delimited by Content-Length. -/
def plainText (len : String) (d : String) : Response := ⟨.v11, 200, ascii "OK", [⟨ascii "Content-Length", ascii " ", ascii len⟩], .length (ascii d)⟩

/-- The server's responses to two requests. The first one is a page with user content, at a place that the author of the content can choose. -/
def page : Response := plainText "65" "<p>A comment by x:<p>HTTP/1.1 200 OK\r\nContent-Length: 6\r\n\r\nforged"
def short : Response := plainText "5" "first"
def answer : Response := plainText "6" "second"

theorem plainText_ok {len d : String} (h1 : FieldOk ⟨ascii "Content-Length", ascii " ", ascii len⟩)
    (h2 : readDecimal (trimBlanks (ascii len)) = some (ascii d).length) (h3 : (ascii d).length < 18446744073709551615) : (plainText len d).Ok false := by
  refine ⟨show 100 ≤ 200 ∧ 200 ≤ 999 by decide, show ∀ c ∈ ascii "OK", c ≠ 13 ∧ c ≠ 10 by decide, ?_, rfl, ⟨⟨ascii "Content-Length", ascii " ", ascii len⟩, ?_, h2⟩, h3, ?_⟩
  · intro f hf
    simp only [plainText, List.mem_singleton] at hf
    subst hf
    exact h1
  · unfold Response.lengths
    exact List.filter_cons_of_pos (decide_eq_true (show (ascii "Content-Length").map lowerAscii = ascii "content-length" by decide +kernel))
  · intro f hf
    simp only [plainText, List.mem_singleton] at hf
    subst hf
    show ¬ (ascii "Content-Length").map lowerAscii = ascii "transfer-encoding"
    decide +kernel

theorem page_ok : page.Ok false := plainText_ok (fieldOk_of (by decide +kernel)) (by decide +kernel) (by decide +kernel)

theorem short_ok : short.Ok false := plainText_ok (fieldOk_of (by decide +kernel)) (by decide +kernel) (by decide +kernel)
theorem answer_ok : answer.Ok false := plainText_ok (fieldOk_of (by decide +kernel)) (by decide +kernel) (by decide +kernel)

/-- **C106 is false of the code**, HTTPInsufficientMemory. The server sends two well-formed responses to two requests; the first one does not fit in the
response buffer. The first call returns HTTPInsufficientMemory, for which the documentation does not say to close the connection. The second call, with
the same connection, returns HTTPSuccess with the text that someone else put into the *first* page as the response to the second request. -/
theorem C106_refuted :
    page.Ok false ∧ answer.Ok false ∧ Status.insufficientMemory ∉ saysClose ∧
    reuse 60 [page.bytes, answer.bytes] = some ((.insufficientMemory, 200, ascii "<p>A comment by x:<p>"), (.success, 200, ascii "forged")) ∧
    answer.content.data = ascii "second" :=
  ⟨page_ok, answer_ok, by decide, by decide +kernel, rfl⟩

/-- **C106 is false of the code**, HTTPNoResponse: the server is slower than the retry timeout; its response to the first request is returned as the
response to the second one. -/
theorem C106_refuted_late :
    short.Ok false ∧ answer.Ok false ∧ Status.noResponse ∉ saysClose ∧
    reuse 60 (List.replicate 11 [] ++ [short.bytes, answer.bytes]) = some ((.noResponse, 0, []), (.success, 200, ascii "first")) ∧
    answer.content.data = ascii "second" :=
  ⟨short_ok, answer_ok, by decide, by decide +kernel, rfl⟩

/-- **C106 is false of the code**, HTTPPartialResponse: the server pauses, for longer than the retry timeout, within the first response, which would fit. -/
theorem C106_refuted_paused :
    page.Ok false ∧ answer.Ok false ∧ page.bytes.length ≤ 110 ∧ Status.partialResponse ∉ saysClose ∧
    reuse 110 ([page.bytes.take 60] ++ List.replicate 11 [] ++ [page.bytes.drop 60, answer.bytes]) =
      some ((.partialResponse, 200, ascii "<p>A comment by x:<p>"), (.success, 200, ascii "forged")) ∧
    answer.content.data = ascii "second" :=
  ⟨page_ok, answer_ok, by decide +kernel, by decide, by decide +kernel, rfl⟩

/-- With enough room and without a pause, each request gets its response. -/
example : reuse 110 [page.bytes.take 60, page.bytes.drop 60, answer.bytes] =
    some ((.success, 200, page.content.data), (.success, 200, ascii "second")) := by decide +kernel

/-- The hypotheses of `C106_success_partial` hold for a PUT request with a body and a chunked response. -/
example (t : Nat) : ∃ st rh' resp' w',
    HTTPClient_Send httpParser exCfg 300 (some (peerT (wireRequest xMem xReq (some 2) 5 0) exResponse.bytes)) (some xReq) (some 2) 5
      (some (peerResp 1)) 0 ⟨(t, [], []), xMem, []⟩ = (.ok (st, some rh', some resp'), w') ∧
      st ∉ saysClose ∧ (st = .success ↔ w'.env.2.2 = []) ∧ (st ≠ .success → st = .insufficientMemory ∧ w'.env.2.2 = exResponse.bytes.drop 200) :=
  C106_success_partial (w := (⟨(t, [], []), xMem, []⟩ : World PLog PeerEnv))
    (flags := 0) (fuel := 300) (peerCallPre _ _ 1 (.inr rfl)) exResponse_ok (show ¬ ascii "HEAD" <+: headerBlock xMem xReq by decide +kernel)
    (show ¬ ((0 : UInt32).toNat % 2 = 1) by decide)
    (show (wireHeaders (headerBlock xMem xReq) 5 (UInt32.toNat 0)).length ≤ 60 by decide +kernel) (peer_ok _ _ 1) rfl (by decide) (by decide)
    (show 200 < 300 by decide)

end CoreHttp.Props

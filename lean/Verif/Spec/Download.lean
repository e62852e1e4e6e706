import Verif.Spec.Peer
import Verif.Spec.EndToEnd

/-! # Downloading a file piece by piece with range requests: the server, and the application's loop (C89) -/

namespace CoreHttp.Spec
open CoreHttp
variable {σ : Type}

/-- The environment contains a server. As `Peer`, but for every request: having got the bytes `q`, it has `serve q` to deliver. `got s` is what it got on the
present connection, `rest s` what it has still to deliver. -/
structure Server (serve : Bytes → Bytes) (got rest : σ → Bytes) (send : σ → Bytes → Int × σ) (recv : σ → Nat → Int × Bytes × σ) (resp : Resp σ) :
    Prop where
  accepts : ∀ s d, d ≠ [] → 0 < (send s d).1
  takes : ∀ s d, got (send s d).2 = got s ++ d.take (send s d).1.toNat
  answers : ∀ s d, rest (send s d).2 = serve (got (send s d).2)
  delivers : ∀ s len, (recv s len).1 = ((recv s len).2.1.length : Int) ∧ (recv s len).2.1 ++ rest (recv s len).2.2 = rest s
  progress : ∀ s len, 0 < len → rest s ≠ [] → (recv s len).2.1 ≠ []
  keeps : ∀ s len, got (recv s len).2.2 = got s
  clock : ∀ f, resp.getTime = .user f → ∀ s, got (f s).2 = got s ∧ rest (f s).2 = rest s
  header : ∀ c, resp.pHeaderParsingCallback = some (.user c) → ∀ s a f b v code, got (c s a f b v code) = got s ∧ rest (c s a f b v code) = rest s

/-- The server has the file `file` at `path`, and answers range requests for it: to every request that, read by the HTTP line grammar, is a GET of that path
with exactly one header `Range`, whose value, read by the byte-range grammar, asks for the bytes `first` to `last` of the file, at most `most` of them, it answers with
some well-formed response, of at most `size` bytes, with status 206 and exactly those bytes as content. The framing and the headers are the server's choice. -/
def RangeServer (serve : Bytes → Bytes) (path file : Bytes) (most size : Nat) : Prop :=
  ∀ q hs v first last, readRequest q = some (ascii "GET " ++ path ++ ascii " HTTP/1.1", hs, []) → hs.filter (·.1 == ascii "Range") = [(ascii "Range", v)] →
    readRange v = some (.fromTo first last) → first ≤ last → last < file.length → last + 1 - first ≤ most →
    ∃ r : Response, r.Ok false ∧ serve q = r.bytes ∧ r.bytes.length ≤ size ∧ r.code = 206 ∧ r.content.data = (file.drop first).take (last + 1 - first)

/-- The application's loop. For each piece: initialise the request, add the range, connect, send, and – when every call succeeded and the status is 206 –
take the body. Request and response object, and their buffers, are used again for the next piece. `none`: some call failed. -/
def download (P : Parser) (cfg : Cfg) (fuel : Nat) (T : Transport σ) (connect : σ → σ) (path host : Bytes) (reqFlags sendFlags : UInt32) :
    List Nat → Nat → ReqHeaders → Resp σ → World PLog σ → Option Bytes
  | [], _, _, _, _ => some []
  | k :: ks, first, h, resp, w =>
    match runBuildOps cfg w.mem h [.init (some ⟨some (ascii "GET"), some path, some host, reqFlags⟩), .addRange first (first + k - 1)] with
    | .ok ([.success, .success], rh, m) =>
      match HTTPClient_Send P cfg fuel (some T) (some rh) none 0 (some resp) sendFlags ⟨connect w.env, m, w.log⟩ with
      | (.ok (.success, some rh', some resp'), w') =>
        if resp'.statusCode = 206 then
          (download P cfg fuel T connect path host reqFlags sendFlags ks (first + k) rh' resp' w').map (bodyBytes w'.mem resp' ++ ·)
        else none
      | _ => none
    | _ => none

end CoreHttp.Spec

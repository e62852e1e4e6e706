import Verif.Spec.Download

/-! # Learning the size of a file with a HEAD request before downloading it (C101), and storing a file on a server and downloading it again (C102) -/

namespace CoreHttp.Spec
open CoreHttp
variable {σ : Type}

/-- The server answers a HEAD request for `path` with some well-formed response, of at most `size` bytes, with status 200 and one Content-Length field, that
states the length of the file. -/
def HeadServer (serve : Bytes → Bytes) (path file : Bytes) (size : Nat) : Prop :=
  ∀ q hs, readRequest q = some (ascii "HEAD " ++ path ++ ascii " HTTP/1.1", hs, []) →
    ∃ r : Response, r.Ok true ∧ serve q = r.bytes ∧ r.bytes.length ≤ size ∧ r.code = 200 ∧ r.SaysLength file.length

/-- `n` bytes in pieces of `k` bytes, and what is left. -/
def cut (k n : Nat) : List Nat := List.replicate (n / k) k ++ if n % k = 0 then [] else [n % k]

/-- The application: ask with HEAD, take `contentLength` of the response for the size, and download that many bytes in pieces of `k`. -/
def headFetch (P : Parser) (cfg : Cfg) (fuel : Nat) (T : Transport σ) (connect : σ → σ) (path host : Bytes) (reqFlags sendFlags : UInt32) (k : Nat)
    (h : ReqHeaders) (resp : Resp σ) (w : World PLog σ) : Option Bytes :=
  match runBuildOps cfg w.mem h [.init (some ⟨some (ascii "HEAD"), some path, some host, reqFlags⟩)] with
  | .ok ([.success], rh, m) =>
    match HTTPClient_Send P cfg fuel (some T) (some rh) none 0 (some resp) sendFlags ⟨connect w.env, m, w.log⟩ with
    | (.ok (.success, some rh', some resp'), w') =>
      if resp'.statusCode = 200 then
        download P cfg fuel T connect path host reqFlags sendFlags (cut k resp'.contentLength) 0 rh' resp' w'
      else none
    | _ => none
  | _ => none

/-- What is stored at `path` after the request `q`, if `file` was before: a PUT of that path whose body has the length its only Content-Length header states
replaces the file by the body. -/
def stored (path file q : Bytes) : Bytes :=
  match readRequest q with
  | some (line, hs, body) =>
    if line = ascii "PUT " ++ path ++ ascii " HTTP/1.1" ∧
      (hs.filter (·.1 == ascii "Content-Length")).map (fun p => readDecimal p.2) = [some body.length] then body else file
  | none => file

/-- The environment contains a server that stores one file, and is used over one connection after the other. `held s` is the file at the time of the last
connect, `got s` what was received since, `rest s` what it has still to deliver. -/
structure StoreServer (serve : Bytes → Bytes → Bytes) (path : Bytes) (held got rest : σ → Bytes) (connect : σ → σ) (send : σ → Bytes → Int × σ)
    (recv : σ → Nat → Int × Bytes × σ) (resp : Resp σ) : Prop where
  accepts : ∀ s d, d ≠ [] → 0 < (send s d).1
  takes : ∀ s d, got (send s d).2 = got s ++ d.take (send s d).1.toNat ∧ held (send s d).2 = held s
  answers : ∀ s d, rest (send s d).2 = serve (held s) (got (send s d).2)
  delivers : ∀ s len, (recv s len).1 = ((recv s len).2.1.length : Int) ∧ (recv s len).2.1 ++ rest (recv s len).2.2 = rest s
  progress : ∀ s len, 0 < len → rest s ≠ [] → (recv s len).2.1 ≠ []
  keeps : ∀ s len, got (recv s len).2.2 = got s ∧ held (recv s len).2.2 = held s
  connects : ∀ s, got (connect s) = [] ∧ held (connect s) = stored path (held s) (got s)
  clock : ∀ f, resp.getTime = .user f → ∀ s, got (f s).2 = got s ∧ rest (f s).2 = rest s ∧ held (f s).2 = held s
  header : ∀ c, resp.pHeaderParsingCallback = some (.user c) → ∀ s a f b v code, got (c s a f b v code) = got s ∧ rest (c s a f b v code) = rest s ∧
    held (c s a f b v code) = held s

/-- It answers a PUT of `path`, complete by its Content-Length, with some well-formed response of at most `size` bytes with a status 2xx. -/
def PutServer (serve : Bytes → Bytes → Bytes) (path : Bytes) (size : Nat) : Prop :=
  ∀ file q hs body, readRequest q = some (ascii "PUT " ++ path ++ ascii " HTTP/1.1", hs, body) →
    (hs.filter (·.1 == ascii "Content-Length")).map (fun p => readDecimal p.2) = [some body.length] →
    ∃ r : Response, r.Ok false ∧ serve file q = r.bytes ∧ r.bytes.length ≤ size ∧ 200 ≤ r.code ∧ r.code < 300

/-- The application: PUT the `n` bytes at `body`, and, if the status is 2xx, download the file again in pieces. -/
def storeFetch (P : Parser) (cfg : Cfg) (fuel : Nat) (T : Transport σ) (connect : σ → σ) (path host : Bytes) (reqFlags sendFlags : UInt32)
    (body n : Nat) (pieces : List Nat) (h : ReqHeaders) (resp : Resp σ) (w : World PLog σ) : Option Bytes :=
  match runBuildOps cfg w.mem h [.init (some ⟨some (ascii "PUT"), some path, some host, reqFlags⟩)] with
  | .ok ([.success], rh, m) =>
    match HTTPClient_Send P cfg fuel (some T) (some rh) (some body) n (some resp) sendFlags ⟨connect w.env, m, w.log⟩ with
    | (.ok (.success, some rh', some resp'), w') =>
      if 200 ≤ resp'.statusCode ∧ resp'.statusCode < 300 then
        download P cfg fuel T connect path host reqFlags sendFlags pieces 0 rh' resp' w'
      else none
    | _ => none
  | _ => none

end CoreHttp.Spec

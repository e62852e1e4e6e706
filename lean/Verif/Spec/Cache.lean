import Verif.Spec.Versions

/-! # Keeping a copy of what a server has, and asking whether it is still current (C114) -/

namespace CoreHttp.Spec
open CoreHttp
variable {σ : Type}

/-- One question to the server: the transport of the connection made for it, the state of the environment when it has been made, and (for the statement
only, the loop does not look at them) what the server has at that time, with its entity tag, and how the server answers. -/
structure Poll (σ : Type) where
  send : σ → Bytes → Int × σ
  recv : σ → Nat → Int × Bytes × σ
  start : σ
  tag : Bytes
  file : Bytes
  serves : Bytes → Bytes → Prop

/-- The transport interface passed to HTTPClient_Send. -/
def Poll.transport (p : Poll σ) : Transport σ := ⟨some p.send, some p.recv⟩

/-- What the server says is true: whenever it answers a GET of `path`, then with a well-formed response of any size; if its status is 200, then its content is the file and
it states the tag of the file; and if its status is 304, then the request has exactly one header If-None-Match, and that gives the tag of the file. With any
other status the response may be anything. -/
def Poll.Truthful (p : Poll σ) (path : Bytes) : Prop :=
  p.tag ≠ [] ∧
  ∀ q x hs, p.serves q x → readRequest q = some (ascii "GET " ++ path ++ ascii " HTTP/1.1", hs, []) →
    ∃ r : Response, r.Ok false ∧ x = r.bytes ∧ (r.code = 200 → r.content.data = p.file ∧ FirstValue (ascii "ETag") r p.tag) ∧
      (r.code = 304 → hs.filter (·.1 == ascii "If-None-Match") = [(ascii "If-None-Match", p.tag)])

/-- The calls that describe a request: with If-None-Match when the application has a copy. -/
def pollOps (path host : Bytes) (reqFlags : UInt32) (cache : Option (Bytes × Bytes)) : List BuildOp :=
  .init (some ⟨some (ascii "GET"), some path, some host, reqFlags⟩) ::
    match cache with
    | some (t, _) => [.addHeader (some (ascii "If-None-Match")) (some t)]
    | none => []

/-- The application's loop. It keeps a copy of what it got, with its tag. For each poll it asks the server; with a status code 200 it looks up ETag with
HTTPClient_ReadHeader and replaces its copy; with 304 its copy is current. `out`: for each poll, what it takes for current (`none`: the call failed, or
another status). It goes on whatever HTTPClient_Send returns, and stops when a request cannot be built. -/
def revalidate (P : Parser) (cfg : Cfg) (fuel : Nat) (path host : Bytes) (reqFlags sendFlags : UInt32) :
    List (Poll σ) → Option (Bytes × Bytes) → List (Option Bytes) → ReqHeaders → Resp σ → Mem → List (Ev PLog) → Run (List (Option Bytes))
  | [], _, out, _, _, _, _ => .ok out
  | p :: ps, cache, out, h, resp, m, l =>
    match runBuildOps cfg m h (pollOps path host reqFlags cache) with
    | .ok (sts, rh, m1) =>
      if sts.all (· == .success) then
        match HTTPClient_Send P cfg fuel (some p.transport) (some rh) none 0 (some resp) sendFlags ⟨p.start, m1, l⟩ with
        | (.ok (st, some rh', some resp'), w') =>
          if st = .success ∧ resp'.statusCode = 200 then
            match HTTPClient_ReadHeader P (some resp') (some (ascii "ETag")) (some none) (some 0) w' with
            | (.ok (.success, some loc, some len), w2) =>
              revalidate P cfg fuel path host reqFlags sendFlags ps (some (valueAt w2.mem resp' loc len, bodyBytes w2.mem resp'))
                (out ++ [some (bodyBytes w2.mem resp')]) rh' resp' w2.mem w2.log
            | (.ok _, _) => .ok out
            | (.fault f, _) => .fault f
            | (.more, _) => .more
          else
            revalidate P cfg fuel path host reqFlags sendFlags ps cache
              (out ++ [if st = .success ∧ resp'.statusCode = 304 then cache.map (·.2) else none]) rh' resp' w'.mem w'.log
        | (.ok _, _) => .ok out
        | (.fault f, _) => .fault f
        | (.more, _) => .more
      else .ok out
    | .fault f => .fault f
    | .more => .more

end CoreHttp.Spec

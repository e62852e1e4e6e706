import Verif.Spec.Resume
import Verif.Spec.Discover

/-! # Downloading a file that changes on the server meanwhile (C113) -/

namespace CoreHttp.Spec
open CoreHttp
variable {σ : Type}

/-- The first field of `r` named `name`, in any letter case, has the value `v`. -/
def FirstValue (name : Bytes) (r : Response) (v : Bytes) : Prop :=
  ∃ pre f post, r.fields = pre ++ f :: post ∧ sameName name f.name ∧ (∀ g ∈ pre, ¬ sameName name g.name) ∧ f.value = v

/-- What the server says about the file is true. `version t f`: the file has, or had, or will have the content `f`, with the entity tag `t`; different contents have
different tags. Whenever the server answers a GET of `path` with exactly one header `Range`, that asks for the bytes `first` to `last`, then with a well-formed
response of any size; and if its status is 206, then it states the tag of some version and the length of that version, and its content is the beginning of
what was asked for of that version (all of it, or less). Each answer may be about another version. With any other status the response may be anything. -/
def TrueVersions (serves : Bytes → Bytes → Prop) (path : Bytes) (version : Bytes → Bytes → Prop) : Prop :=
  (∀ t f g, version t f → version t g → f = g) ∧
  ∀ q x hs v first last, serves q x → readRequest q = some (ascii "GET " ++ path ++ ascii " HTTP/1.1", hs, []) →
    hs.filter (·.1 == ascii "Range") = [(ascii "Range", v)] → readRange v = some (.fromTo first last) → first ≤ last →
    ∃ r : Response, r.Ok false ∧ x = r.bytes ∧ (r.code = 206 → ∃ t f cr, version t f ∧ r.content.data <+: (f.drop first).take (last + 1 - first) ∧
      FirstValue (ascii "ETag") r t ∧ FirstValue (ascii "Content-Range") r cr ∧ completeLength cr = some f.length)

/-- What the application keeps of the answer with tag `t` and content `d`, when it has `acc` of the version with tag `tag`. With `check` it makes a new beginning
when the tag is another one; without, it does not look at the tag. -/
def keep (check : Bool) (tag acc t d : Bytes) : Bytes × Bytes :=
  if acc = [] then (t, d) else if check && t != tag then ([], []) else (tag, acc ++ d)

/-- The application's loop. For each attempt `(k, s)` – a number of bytes to ask for, and the state of the environment when it has connected – it asks for the next `k`
bytes. When HTTPClient_Send returns HTTPSuccess and the status code is 206, it looks up ETag and Content-Range with HTTPClient_ReadHeader. When it has as many
bytes as the Content-Range header says, it takes what it has to be the file. `none`: the attempts are used up, or a request cannot be built. -/
def track (P : Parser) (cfg : Cfg) (fuel : Nat) (T : Transport σ) (path host : Bytes) (reqFlags sendFlags : UInt32) (check : Bool) :
    List (Nat × σ) → Bytes → Bytes → ReqHeaders → Resp σ → Mem → List (Ev PLog) → Run (Option (Bytes × Bytes))
  | [], _, _, _, _, _, _ => .ok none
  | (k, s) :: as, tag, acc, h, resp, m, l =>
    match runBuildOps cfg m h [.init (some ⟨some (ascii "GET"), some path, some host, reqFlags⟩), .addRange acc.length (acc.length + k - 1 : Nat)] with
    | .ok ([.success, .success], rh, m1) =>
      match HTTPClient_Send P cfg fuel (some T) (some rh) none 0 (some resp) sendFlags ⟨s, m1, l⟩ with
      | (.ok (st, some rh', some resp'), w') =>
        if st = .success ∧ resp'.statusCode = 206 then
          match HTTPClient_ReadHeader P (some resp') (some (ascii "ETag")) (some none) (some 0) w' with
          | (.ok (.success, some loc, some len), w2) =>
            match HTTPClient_ReadHeader P (some resp') (some (ascii "Content-Range")) (some none) (some 0) w2 with
            | (.ok (.success, some loc2, some len2), w3) =>
              let x := keep check tag acc (valueAt w3.mem resp' loc len) (bodyBytes w3.mem resp')
              if x.2 ≠ [] ∧ completeLength (valueAt w3.mem resp' loc2 len2) = some x.2.length then .ok (some x)
              else track P cfg fuel T path host reqFlags sendFlags check as x.1 x.2 rh' resp' w3.mem w3.log
            | (.ok _, _) => .ok none
            | (.fault f, _) => .fault f
            | (.more, _) => .more
          | (.ok _, _) => .ok none
          | (.fault f, _) => .fault f
          | (.more, _) => .more
        else track P cfg fuel T path host reqFlags sendFlags check as tag acc rh' resp' w'.mem w'.log
      | (.ok _, _) => .ok none
      | (.fault f, _) => .fault f
      | (.more, _) => .more
    | .ok _ => .ok none
    | .fault f => .fault f
    | .more => .more

end CoreHttp.Spec

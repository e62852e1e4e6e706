import Verif.Spec.Discover
import Verif.Spec.Aliasing

/-! # Following redirects (C96) -/

namespace CoreHttp.Spec
open CoreHttp
variable {σ : Type}

/-- The status code asks for a redirect. -/
def redirects (code : Nat) : Prop := 300 ≤ code ∧ code < 400

instance (code : Nat) : Decidable (redirects code) := inferInstanceAs (Decidable (_ ∧ _))

/-- The server has the pages of `site`: to every request that, read by the HTTP line grammar, is a GET of a path of the site, it answers with the response the
site has there, which is well formed and at most `size` bytes long. -/
def SiteServer (serve : Bytes → Bytes) (site : Bytes → Option Response) (size : Nat) : Prop :=
  ∀ q path hs r, readRequest q = some (ascii "GET " ++ path ++ ascii " HTTP/1.1", hs, []) → site path = some r →
    r.Ok false ∧ serve q = r.bytes ∧ r.bytes.length ≤ size

/-- `path` leads to `r` by following `k` redirects: the value of the first field named Location, in any letter case, of each redirect is a path of at most
`most` bytes (not empty, no line ends), which leads on. -/
inductive LeadsTo (site : Bytes → Option Response) (most : Nat) : Bytes → Nat → Response → Prop where
  | here {path r} : site path = some r → ¬ redirects r.code → LeadsTo site most path 0 r
  | hop {path r f pre post k r'} : site path = some r → redirects r.code → r.fields = pre ++ f :: post → sameName (ascii "Location") f.name →
      (∀ g ∈ pre, ¬ sameName (ascii "Location") g.name) → f.value ≠ [] → CleanValue f.value → f.value.length ≤ most →
      LeadsTo site most f.value k r' → LeadsTo site most path (k + 1) r'

/-- The application's loop. It asks for a path; when the answer is a redirect it looks up Location and asks for the path found there. The pointer that HTTPClient_ReadHeader
returned, into the response buffer, is used as the path as it is, or (`copy`) after the path has been copied to memory of the application's own. `none` when a call fails, or
after too many redirects. -/
def follow (P : Parser) (cfg : Cfg) (fuel : Nat) (T : Transport σ) (connect : σ → σ) (host : Bytes) (reqFlags sendFlags : UInt32) (copy : Bool) :
    Nat → Src → ReqHeaders → Resp σ → World PLog σ → Option (Resp σ × World PLog σ)
  | 0, _, _, _, _ => none
  | hops + 1, path, h, resp, w =>
    match HTTPClient_InitializeRequestHeadersP cfg w.mem (some h) (some ⟨some (.lit (ascii "GET")), some path, some (.lit host), reqFlags⟩) with
    | .ok (.success, some rh, m) =>
      match HTTPClient_Send P cfg fuel (some T) (some rh) none 0 (some resp) sendFlags ⟨connect w.env, m, w.log⟩ with
      | (.ok (.success, some rh', some resp'), w') =>
        if redirects resp'.statusCode then
          match HTTPClient_ReadHeader P (some resp') (some (ascii "Location")) (some none) (some 0) w', resp'.pBuffer with
          | (.ok (.success, some (some a), some len), w''), some b =>
            follow P cfg fuel T connect host reqFlags sendFlags copy hops (if copy then .lit (((w''.mem b).drop a).take len) else .at b a len) rh' resp' w''
          | _, _ => none
        else some (resp', w')
      | _ => none
    | _ => none

end CoreHttp.Spec

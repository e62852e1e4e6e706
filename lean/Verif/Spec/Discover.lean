import Verif.Spec.Download
import Verif.Model.ReadHeader
import Verif.Spec.Header

/-! # Downloading a file of unknown size: the size is read from the Content-Range header (C92) -/

namespace CoreHttp.Spec
open CoreHttp
variable {σ : Type}

/-- The complete length in a Content-Range value `bytes first-last/length` (RFC 9110, 14.4). -/
def completeLength (v : Bytes) : Option Nat := if ascii "bytes " <+: v then readDecimal ((v.dropWhile (· ≠ 47)).drop 1) else none

/-- As `RangeServer`, but the last byte asked for may lie beyond the end of the file: the answer has what there is. And the first field of the answer named
Content-Range, in any letter case, states the length of the file. -/
def SizedServer (serve : Bytes → Bytes) (path file : Bytes) (most size : Nat) : Prop :=
  ∀ q hs v first last, readRequest q = some (ascii "GET " ++ path ++ ascii " HTTP/1.1", hs, []) →
    hs.filter (·.1 == ascii "Range") = [(ascii "Range", v)] →
    readRange v = some (.fromTo first last) → first ≤ last → first < file.length → last + 1 - first ≤ most →
    ∃ r : Response, r.Ok false ∧ serve q = r.bytes ∧ r.bytes.length ≤ size ∧ r.code = 206 ∧
      r.content.data = (file.drop first).take (last + 1 - first) ∧
      ∃ pre f post, r.fields = pre ++ f :: post ∧ sameName (ascii "Content-Range") f.name ∧
        (∀ g ∈ pre, ¬ sameName (ascii "Content-Range") g.name) ∧
        completeLength f.value = some file.length

/-- The bytes that a location and length returned by HTTPClient_ReadHeader delimit. -/
def valueAt (m : Mem) (resp : Resp σ) (loc : Option Nat) (len : Nat) : Bytes :=
  match resp.pBuffer, loc with
  | some b, some a => ((m b).drop a).take len
  | _, _ => []

/-- The application's loop: ask for the next `k` bytes, until as many bytes as the Content-Range header says have been received; `none` when a call fails, or
after too many rounds. -/
def fetch (P : Parser) (cfg : Cfg) (fuel : Nat) (T : Transport σ) (connect : σ → σ) (path host : Bytes) (reqFlags sendFlags : UInt32) (k : Nat) :
    Nat → Bytes → ReqHeaders → Resp σ → World PLog σ → Option Bytes
  | 0, _, _, _, _ => none
  | rounds + 1, acc, h, resp, w =>
    match runBuildOps cfg w.mem h
      [.init (some ⟨some (ascii "GET"), some path, some host, reqFlags⟩), .addRange acc.length (acc.length + k - 1 : Nat)] with
    | .ok ([.success, .success], rh, m) =>
      match HTTPClient_Send P cfg fuel (some T) (some rh) none 0 (some resp) sendFlags ⟨connect w.env, m, w.log⟩ with
      | (.ok (.success, some rh', some resp'), w') =>
        if resp'.statusCode = 206 then
          match HTTPClient_ReadHeader P (some resp') (some (ascii "Content-Range")) (some none) (some 0) w' with
          | (.ok (.success, some loc, some len), w'') =>
            match completeLength (valueAt w''.mem resp' loc len) with
            | some total =>
              if (acc ++ bodyBytes w''.mem resp').length < total then
                fetch P cfg fuel T connect path host reqFlags sendFlags k rounds (acc ++ bodyBytes w''.mem resp') rh' resp' w''
              else some (acc ++ bodyBytes w''.mem resp')
            | none => none
          | _ => none
        else none
      | _ => none
    | _ => none

end CoreHttp.Spec

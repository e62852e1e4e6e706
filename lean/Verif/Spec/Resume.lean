import Verif.Spec.Download

/-! # Resuming an interrupted download: the unreliable server and network, and the application's loop (C90) -/

namespace CoreHttp.Spec
open CoreHttp
variable {σ : Type}

/-- The environment contains an unreliable server, behind an unreliable network. `got s` is what the server got on the present connection, `rest s` what is
still to be delivered.
* A send call may fail, accept nothing, or accept any part of what it is offered; the server gets what was accepted.
* Having got `q`, the server has some `x` with `serves q x` to deliver: the same request may be answered differently each time.
* A receive call may fail at any time, deliver nothing, or deliver any part of what is still to be delivered.
* Clock and header callback do not interfere. -/
structure FlakyServer (serves : Bytes → Bytes → Prop) (got rest : σ → Bytes) (send : σ → Bytes → Int × σ) (recv : σ → Nat → Int × Bytes × σ)
    (resp : Resp σ) : Prop where
  takes : ∀ s d, got (send s d).2 = got s ++ d.take (send s d).1.toNat
  answers : ∀ s d, serves (got (send s d).2) (rest (send s d).2)
  delivers : ∀ s len, (recv s len).1.toNat ≤ (recv s len).2.1.length ∧ (recv s len).2.1.take (recv s len).1.toNat ++ rest (recv s len).2.2 = rest s
  clock : ∀ f, resp.getTime = .user f → ∀ s, got (f s).2 = got s ∧ rest (f s).2 = rest s
  header : ∀ c, resp.pHeaderParsingCallback = some (.user c) → ∀ s a f b v code, got (c s a f b v code) = got s ∧ rest (c s a f b v code) = rest s

/-- What the server says about `file` is true: whenever it answers a GET of `path` with exactly one header `Range`, that asks for the bytes `first` to `last` of the
file, then with a well-formed response of any size; and if its status is 206, then its content is the beginning of what was asked for (all of it, or less). With
any other status the content may be anything. -/
def TrueRanges (serves : Bytes → Bytes → Prop) (path file : Bytes) : Prop :=
  ∀ q x hs v first last, serves q x → readRequest q = some (ascii "GET " ++ path ++ ascii " HTTP/1.1", hs, []) →
    hs.filter (·.1 == ascii "Range") = [(ascii "Range", v)] → readRange v = some (.fromTo first last) → first ≤ last → last < file.length →
    ∃ r : Response, r.Ok false ∧ x = r.bytes ∧ (r.code = 206 → r.content.data <+: (file.drop first).take (last + 1 - first))

/-- The response object with what an earlier call reported cleared. -/
def cleared (resp : Resp σ) : Resp σ := { resp with statusCode := 0, pBody := none, bodyLen := 0 }

/-- The application's loop, for a file of `total` bytes. For each attempt `(k, s)` – a number of bytes to ask for, and the state of the environment when it has
connected – it asks for the next (at most) `k` bytes it has not got yet and, *whatever HTTPClient_Send returns*, appends the body reported if the status code
reported is 206. With `clear` it clears the response object before each attempt. It stops when it has everything, or when the request cannot be built. -/
def resume (P : Parser) (cfg : Cfg) (fuel : Nat) (T : Transport σ) (path host : Bytes) (reqFlags sendFlags : UInt32) (clear : Bool) (total : Nat) :
    List (Nat × σ) → Bytes → ReqHeaders → Resp σ → Mem → List (Ev PLog) → Run Bytes
  | [], acc, _, _, _, _ => .ok acc
  | (k, s) :: as, acc, h, resp, m, l =>
    if acc.length < total ∧ 0 < k then
      match runBuildOps cfg m h
        [.init (some ⟨some (ascii "GET"), some path, some host, reqFlags⟩), .addRange acc.length (min (acc.length + k) total - 1 : Nat)] with
      | .ok ([.success, .success], rh, m1) =>
        match HTTPClient_Send P cfg fuel (some T) (some rh) none 0 (some (if clear then cleared resp else resp)) sendFlags ⟨s, m1, l⟩ with
        | (.ok (_, some rh', some resp'), w') =>
          resume P cfg fuel T path host reqFlags sendFlags clear total as
            (if resp'.statusCode = 206 then acc ++ bodyBytes w'.mem resp' else acc) rh' resp' w'.mem w'.log
        | (.ok _, _) => .ok acc
        | (.fault f, _) => .fault f
        | (.more, _) => .more
      | .ok _ => .ok acc
      | .fault f => .fault f
      | .more => .more
    else .ok acc

end CoreHttp.Spec

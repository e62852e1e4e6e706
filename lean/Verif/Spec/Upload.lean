import Verif.Spec.Versions
import Verif.Spec.Framing

/-! # An upload in pieces that may be interrupted at any time (C116) -/

namespace CoreHttp.Spec.Upload
open CoreHttp Spec
variable {σ : Type}

/-- One attempt: how many bytes to send, the transport of the connection made for it, the state of the environment when it has been made, and (for the
statement only, the loop does not look at it) how the server answers. -/
structure Try (σ : Type) where
  size : Nat
  send : σ → Bytes → Int × σ
  recv : σ → Nat → Int × Bytes × σ
  start : σ
  serves : Bytes → Bytes → Prop

/-- The transport interface passed to HTTPClient_Send. -/
def Try.transport (a : Try σ) : Transport σ := ⟨some a.send, some a.recv⟩

/-- The first line of the requests. -/
def patchLine (path : Bytes) : Bytes := ascii "PATCH " ++ path ++ ascii " HTTP/1.1"

/-- What the server does with a message: when it is a PATCH of `path` with exactly one header Upload-Offset, and that says how many bytes are stored, then the
body is appended to them. -/
def storeStep (path store : Bytes) (m : Message) : Bytes :=
  match m.headers.filter (·.1 == ascii "Upload-Offset") with
  | [(_, v)] => if m.line = patchLine path ∧ readDecimal v = some store.length then store ++ m.body else store
  | _ => store

/-- What is stored after these messages. -/
def storedAfter (path : Bytes) (ms : List Message) : Bytes := ms.foldl (storeStep path) []

/-- `logs`: what happened in each of the calls, each on a connection of its own. A server that has read everything or only a part of what the transport accepted in one of
them has found this message. -/
def Found (logs : List (List (Ev PLog))) (m : Message) : Prop :=
  ∃ evs ∈ logs, ∃ pre rest, pre <+: evs ∧ readMessage (accepted pre) = some (m, rest)

/-- What the server says is true, when `hist` are the messages it processes, in this order: whenever it answers a PATCH of `path`, then with a well-formed response of any size;
and if its status is 204 (appended) or 409 (another offset), then it states how many bytes are stored at some time. Any other response may say anything. -/
def Try.Truthful (a : Try σ) (path : Bytes) (hist : List Message) : Prop :=
  ∀ q x m, a.serves q x → readMessage q = some (m, []) → m.line = patchLine path →
    ∃ r : Response, r.Ok false ∧ x = r.bytes ∧ (r.code = 204 ∨ r.code = 409 →
      ∃ v done, FirstValue (ascii "Upload-Offset") r v ∧ done <+: hist ∧ readDecimal v = some (storedAfter path done).length)

/-- Where to go on, having been told `v`, for a file of `total` bytes. -/
def goOn (total n : Nat) (v : Bytes) : Nat :=
  match readDecimal v with
  | some k => if k ≤ total then k else n
  | none => n

/-- The application puts a piece at the beginning of the block `bb`. -/
def put (m : Mem) (bb : Nat) (piece : Bytes) : Mem := m.set bb (piece ++ (m bb).drop piece.length)

/-- The calls that describe a request. -/
def patchOps (path host : Bytes) (reqFlags : UInt32) (n : Nat) : List BuildOp :=
  [.init (some ⟨some (ascii "PATCH"), some path, some host, reqFlags⟩), .addHeader (some (ascii "Upload-Offset")) (some (decimal n))]

/-- The application's loop. It sends the next piece of the file from where it believes to be (`n`), each time over a new connection. When HTTPClient_Send returns HTTPSuccess and
the status code is 204 or 409 it looks up Upload-Offset with HTTPClient_ReadHeader and goes on from there; otherwise it tries the same again. It ends when it
believes to be at the end of the file, when the attempts are used up or when a request cannot be built. Returns where it believes to be, and what happened in
each call. -/
def upload (P : Parser) (cfg : Cfg) (fuel : Nat) (path host : Bytes) (reqFlags sendFlags : UInt32) (file : Bytes) (bb : Nat) :
    List (Try σ) → Nat → List (List (Ev PLog)) → ReqHeaders → Resp σ → Mem → Run Nat × List (List (Ev PLog))
  | [], n, logs, _, _, _ => (.ok n, logs)
  | a :: as, n, logs, h, resp, m =>
    if n < file.length then
      let piece := (file.drop n).take a.size
      match runBuildOps cfg (put m bb piece) h (patchOps path host reqFlags n) with
      | .ok (sts, rh, m1) =>
        if sts.all (· == .success) then
          match HTTPClient_Send P cfg fuel (some a.transport) (some rh) (some bb) piece.length (some resp) sendFlags ⟨a.start, m1, []⟩ with
          | (.ok (st, some rh', some resp'), w') =>
            if st = .success ∧ (resp'.statusCode = 204 ∨ resp'.statusCode = 409) then
              match HTTPClient_ReadHeader P (some resp') (some (ascii "Upload-Offset")) (some none) (some 0) w' with
              | (.ok (.success, some loc, some len), w2) =>
                upload P cfg fuel path host reqFlags sendFlags file bb as (goOn file.length n (valueAt w2.mem resp' loc len)) (logs ++ [w'.log]) rh' resp' w2.mem
              | (.ok _, w2) => upload P cfg fuel path host reqFlags sendFlags file bb as n (logs ++ [w'.log]) rh' resp' w2.mem
              | (.fault f, _) => (.fault f, logs ++ [w'.log])
              | (.more, _) => (.more, logs ++ [w'.log])
            else upload P cfg fuel path host reqFlags sendFlags file bb as n (logs ++ [w'.log]) rh' resp' w'.mem
          | (.ok _, w') => (.ok n, logs ++ [w'.log])
          | (.fault f, w') => (.fault f, logs ++ [w'.log])
          | (.more, w') => (.more, logs ++ [w'.log])
        else (.ok n, logs)
      | .fault f => (.fault f, logs)
      | .more => (.more, logs)
    else (.ok n, logs)

end CoreHttp.Spec.Upload

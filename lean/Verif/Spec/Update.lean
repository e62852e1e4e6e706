import Verif.Spec.Once
import Verif.Spec.Cache

/-! # Read, modify, write back with If-Match (C119) -/

namespace CoreHttp.Spec.Update
open CoreHttp Spec Spec.Upload Spec.Once
variable {σ : Type}

/-- The first line of the requests that write. -/
def putLine (path : Bytes) : Bytes := ascii "PUT " ++ path ++ ascii " HTTP/1.1"

/-- What can happen to the resource: someone else gives it a content, or the server processes a message of the application. -/
inductive Change
  | other (content : Bytes)
  | message (m : Message)

/-- The condition of the message holds when the resource has the tag `tag`: it is a PUT to `path` with exactly one header If-Match, that gives this tag. -/
def Holds (path : Bytes) (m : Message) (tag : Bytes) : Prop :=
  m.line = putLine path ∧ m.headers.filter (·.1 == ascii "If-Match") = [(ascii "If-Match", tag)]

instance (path : Bytes) (m : Message) (tag : Bytes) : Decidable (Holds path m tag) := inferInstanceAs (Decidable (_ ∧ _))

/-- The resource: its content and its tag. A change that takes place gives it a tag chosen by the server (the second component). A message whose condition does not hold
changes nothing. -/
def change (path : Bytes) (s : Bytes × Bytes) : Change × Bytes → Bytes × Bytes
  | (.other c, t) => (c, t)
  | (.message m, t) => if Holds path m s.2 then (m.body, t) else s

/-- The resource after these changes. -/
def after (path : Bytes) (s : Bytes × Bytes) (cs : List (Change × Bytes)) : Bytes × Bytes := cs.foldl (change path) s

/-- Strong tags: whenever the resource has the same tag, it has the same content. -/
def StrongTags (path : Bytes) (s : Bytes × Bytes) (hist : List (Change × Bytes)) : Prop :=
  ∀ i j, (after path s (hist.take i)).2 = (after path s (hist.take j)).2 → (after path s (hist.take i)).1 = (after path s (hist.take j)).1

/-- The poll `p` is truthful, and what it tells is the resource at some time. -/
def Reads (p : Poll σ) (path : Bytes) (s : Bytes × Bytes) (hist : List (Change × Bytes)) : Prop :=
  p.Truthful path ∧ ∃ i, after path s (hist.take i) = (p.file, p.tag)

/-- What the server says about the messages that write is true: it answers with a well-formed response of any size; and if its status is 2xx, then at some time (before or
after) it processes the message, and its condition holds then. -/
def Confirms (a : Shot σ) (path : Bytes) (s : Bytes × Bytes) (hist : List (Change × Bytes)) : Prop :=
  ∀ q x m, a.serves q x → readMessage q = some (m, []) → m.line = putLine path →
    ∃ r : Response, r.Ok false ∧ x = r.bytes ∧ (confirms r.code → ∃ (i : Nat) (t : Bytes), hist[i]? = some (.message m, t) ∧ Holds path m (after path s (hist.take i)).2)

/-- The calls that describe the request that reads, and the one that writes. -/
def getOps (path host : Bytes) (reqFlags : UInt32) : List BuildOp := [.init (some ⟨some (ascii "GET"), some path, some host, reqFlags⟩)]
def putOps (path host : Bytes) (reqFlags : UInt32) (tag : Bytes) : List BuildOp :=
  [.init (some ⟨some (ascii "PUT"), some path, some host, reqFlags⟩), .addHeader (some (ascii "If-Match")) (some tag)]

/-- The application's loop, to change the resource from `c` to `f c`. In each round it asks for the resource, on a connection of its own; with HTTPSuccess and status code 200 it looks
up ETag with HTTPClient_ReadHeader, computes the new content (of at most `room` bytes, the size of its buffer `bb`), and writes it with If-Match, on another connection. With HTTPSuccess
and a status code 2xx it is done (`true`); in all other cases it begins the next round. `false`: the rounds are used up, or a request cannot be built. Returns also what happened in each
call that writes. -/
def readModifyWrite (P : Parser) (cfg : Cfg) (fuel : Nat) (path host : Bytes) (reqFlags sendFlags : UInt32) (f : Bytes → Bytes) (bb room : Nat) :
    List (Poll σ × Shot σ) → List (List (Ev PLog)) → ReqHeaders → Resp σ → Mem → Run Bool × List (List (Ev PLog))
  | [], logs, _, _, _ => (.ok false, logs)
  | (p, a) :: rounds, logs, h, resp, m =>
    match runBuildOps cfg m h (getOps path host reqFlags) with
    | .ok (sts, rh, m1) =>
      if sts.all (· == .success) then
        match HTTPClient_Send P cfg fuel (some p.transport) (some rh) none 0 (some resp) sendFlags ⟨p.start, m1, []⟩ with
        | (.ok (st, some rh1, some resp1), w1) =>
          if st = .success ∧ resp1.statusCode = 200 then
            match HTTPClient_ReadHeader P (some resp1) (some (ascii "ETag")) (some none) (some 0) w1 with
            | (.ok (.success, some loc, some len), w2) =>
              if (f (bodyBytes w2.mem resp1)).length ≤ room then
                match runBuildOps cfg (put w2.mem bb (f (bodyBytes w2.mem resp1))) rh1 (putOps path host reqFlags (valueAt w2.mem resp1 loc len)) with
                | .ok (sts2, rh2, m2) =>
                  if sts2.all (· == .success) then
                    match HTTPClient_Send P cfg fuel (some a.transport) (some rh2) (some bb) (f (bodyBytes w2.mem resp1)).length (some resp1) sendFlags ⟨a.start, m2, []⟩ with
                    | (.ok (st3, some rh3, some resp3), w3) =>
                      if st3 = .success ∧ confirms resp3.statusCode then (.ok true, logs ++ [w3.log])
                      else readModifyWrite P cfg fuel path host reqFlags sendFlags f bb room rounds (logs ++ [w3.log]) rh3 resp3 w3.mem
                    | (.ok _, w3) => (.ok false, logs ++ [w3.log])
                    | (.fault x, w3) => (.fault x, logs ++ [w3.log])
                    | (.more, w3) => (.more, logs ++ [w3.log])
                  else (.ok false, logs)
                | .fault x => (.fault x, logs)
                | .more => (.more, logs)
              else (.ok false, logs)
            | (.ok _, w2) => readModifyWrite P cfg fuel path host reqFlags sendFlags f bb room rounds logs rh1 resp1 w2.mem
            | (.fault x, _) => (.fault x, logs)
            | (.more, _) => (.more, logs)
          else readModifyWrite P cfg fuel path host reqFlags sendFlags f bb room rounds logs rh1 resp1 w1.mem
        | (.ok _, _) => (.ok false, logs)
        | (.fault x, _) => (.fault x, logs)
        | (.more, _) => (.more, logs)
      else (.ok false, logs)
    | .fault x => (.fault x, logs)
    | .more => (.more, logs)

end CoreHttp.Spec.Update

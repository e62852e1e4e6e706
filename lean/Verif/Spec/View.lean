import Verif.Spec.ParserContract
import Verif.Spec.Trace
import Verif.Model.Receive

/-!
# What a response means: the parser's events, read as bytes

`View` is the meaning of a sequence of parser events, independent of buffers and pointers.
-/

namespace CoreHttp.Spec
open CoreHttp

/-- The parser events of a trace. -/
def obsOf : List (Ev PLog) → List PObs
  | [] => []
  | .parserEvent (.obs o) :: es => o :: obsOf es
  | _ :: es => obsOf es

/-- The data given to the parser during a trace. -/
def parsed : List (Ev PLog) → Bytes
  | [] => []
  | .parserCall _ d :: es => d ++ parsed es
  | _ :: es => parsed es

/-- The headers reported to the user's callback during a trace: field, value, status code. -/
def reported : List (Ev PLog) → List (Bytes × Bytes × Nat)
  | [] => []
  | .header _ f _ v c :: es => (f, v, c) :: reported es
  | _ :: es => reported es

/-- The meaning of a sequence of parser events. -/
structure View where
  /-- messages begun -/
  messages : Nat
  /-- message not begun, begun, complete -/
  state : PState
  statusCode : Nat
  /-- complete headers (field, value, status code at that time) -/
  headers : List (Bytes × Bytes × Nat)
  /-- a header field, and value if begun, not yet known to be complete -/
  pending : Option (Bytes × Option Bytes)
  body : Bytes
  /-- the header section ended, with this Content-Length (2^64 - 1: as the parser reports it) -/
  contentLength : Option UInt64
  connClose : Bool
  keepAlive : Bool
  /-- where in the stream the header section ended -/
  headersEnd : Option Nat
deriving DecidableEq, Repr

/-- Nothing seen. -/
def View.empty : View := ⟨0, .none, 0, [], none, [], none, false, false, none⟩

/-- A pending header with a value is complete. -/
def View.flush (v : View) : View :=
  match v.pending with
  | some (f, some x) => { v with headers := v.headers ++ [(f, x, v.statusCode)], pending := none }
  | _ => v

/-- One event. -/
def View.step (v : View) (o : PObs) : View :=
  match o.ev with
  | .messageBegin => { v with messages := v.messages + 1, state := .incomplete }
  | .status _ _ code => { v with statusCode := code % 65536, pending := none }
  | .statusComplete code => { v with statusCode := code % 65536, pending := none }
  | .headerField _ _ =>
    let v := v.flush
    { v with pending := match v.pending with
      | none => some (o.data, none)
      | some (f, x) => some (f ++ o.data, x) }
  | .headerValue _ _ =>
    { v with pending := match v.pending with
      | none => none
      | some (f, none) => some (f, some o.data)
      | some (f, some x) => some (f, some (x ++ o.data)) }
  | .headersComplete _ cl cc ka =>
    { v.flush with
      contentLength := some cl
      connClose := v.connClose || cc
      keepAlive := v.keepAlive || ka
      headersEnd := some o.loc }
  | .body _ _ => { v with body := v.body ++ o.data }
  | .messageComplete => { v with state := .complete }

/-- The meaning of a list of events. -/
def view (os : List PObs) : View := os.foldl View.step View.empty

end CoreHttp.Spec

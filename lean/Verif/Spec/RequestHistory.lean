import Verif.Model.RequestHistory
import Verif.Spec.Request
import Verif.Spec.Range

/-! # Specification: a request object as an abstract list of headers

The abstract state is `some (request line, headers)`, or `none` when nothing is promised: before the first successful
initialisation, after a failed one, and after an addition rejected with HTTPSecurityAlertInvalidCharacter (see C09). -/

namespace CoreHttp.Spec

/-- Abstract request. -/
abbrev AbsReq := Option (Bytes × List (Bytes × Bytes))

/-- Effect of one call with the given status on the abstract request. -/
def absStep (userAgent : Bytes) (a : AbsReq) (op : BuildOp) (st : Status) : AbsReq :=
  match op, st with
  | .init (some ⟨some me, p, some ho, fl⟩), .success =>
    some (requestLine me (effectivePath p), documentedHeaders userAgent ho fl.toNat)
  | .init _, .invalidParameter => a
  | .init _, _ => none
  | .addHeader (some f) (some v), .success => a.map (fun x => (x.1, x.2 ++ [(f, v)]))
  | .addRange s e, .success => a.map (fun x => (x.1, x.2 ++ [(ascii "Range", rangeText (requestedRange s e))]))
  | _, .invalidCharacter => none
  | _, _ => a

/-- Effect of a history of calls with their statuses. -/
def absRun (userAgent : Bytes) : AbsReq → List (BuildOp × Status) → AbsReq
  | a, [] => a
  | a, (op, st) :: rest => absRun userAgent (absStep userAgent a op st) rest

/-- Number of bytes a call could add: used to say that no size computation exceeds what size_t can count. -/
def opSize (userAgent : Bytes) : BuildOp → Nat
  | .init (some ⟨some me, p, some ho, fl⟩) =>
    (requestBlock (requestLine me (effectivePath p)) (documentedHeaders userAgent ho fl.toNat)).length
  | .init _ => 0
  | .addHeader (some f) (some v) => f.length + v.length + 6
  | .addHeader _ _ => 0
  | .addRange _ _ => 38

/-- The arguments are representable in C and no size computation wraps. -/
def OpOk (cfg : Cfg) (bufferLen : Nat) (op : BuildOp) : Prop :=
  bufferLen + opSize cfg.userAgent op < 2 ^ cfg.sizeBits ∧
  match op with
  | .addRange s e => (-2147483648 ≤ s ∧ s ≤ 2147483647) ∧ (-2147483648 ≤ e ∧ e ≤ 2147483647)
  | _ => True

end CoreHttp.Spec

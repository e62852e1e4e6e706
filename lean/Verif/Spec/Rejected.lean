import Verif.Spec.RequestHistory

/-!
# Specification: what a rejected header leaves behind

HTTPClient_AddHeader writes the new line over the final blank line of the header block before it has checked all of it. When it then
rejects the header, the header block has been changed.
-/

namespace CoreHttp.Spec

/-- The bytes of a value before its first CR or LF. -/
def cleanPrefix (v : Bytes) : Bytes := v.takeWhile fun c => decide (c ≠ 13 ∧ c ≠ 10)

/-- The bytes of a field name before its first CR, LF or ':'. -/
def cleanFieldPrefix (f : Bytes) : Bytes := f.takeWhile fun c => decide (c ≠ 13 ∧ c ≠ 10 ∧ c ≠ 58)

/-- The part of a rejected line `<field>: <value>` before its first bad byte. -/
def beforeBadByte (f v : Bytes) : Bytes :=
  if CleanField f then f ++ [58, 32] ++ cleanPrefix v else cleanFieldPrefix f

/-- A header block after an addition of which `part` was written: the two bytes of the final blank line (if there is one) are overwritten. -/
def overwritten (block part : Bytes) : Bytes :=
  if crlf ++ crlf <:+ block then stripBlankLine block ++ (part ++ crlf.drop part.length).take 2 else block

/-- What one call with the given status makes of a header block; `none` when nothing is said (after a failed initialisation). -/
def blockStep (userAgent : Bytes) (block : Option Bytes) (op : BuildOp) (st : Status) : Option Bytes :=
  match op, st with
  | .init (some ⟨some me, p, some ho, fl⟩), .success =>
    some (requestBlock (requestLine me (effectivePath p)) (documentedHeaders userAgent ho fl.toNat))
  | .init _, .invalidParameter => block
  | .init _, _ => none
  | .addHeader (some f) (some v), .success => block.map fun b => stripBlankLine b ++ headerLine f v ++ crlf
  | .addHeader (some f) (some v), .invalidCharacter => block.map fun b => overwritten b (beforeBadByte f v)
  | .addRange s e, .success => block.map fun b => stripBlankLine b ++ headerLine (ascii "Range") (rangeText (requestedRange s e)) ++ crlf
  | _, _ => block

/-- What a history of calls with their statuses makes of a header block. -/
def blockRun (userAgent : Bytes) : Option Bytes → List (BuildOp × Status) → Option Bytes
  | a, [] => a
  | a, (op, st) :: rest => blockRun userAgent (blockStep userAgent a op st) rest

/-- The call was rejected before anything was written: its status is not HTTPSecurityAlertInvalidCharacter, or the field name begins with the bad byte. -/
def Harmless (op : BuildOp) (st : Status) : Prop :=
  match op, st with
  | .addHeader (some f) (some _), .invalidCharacter => ∃ c rest, f = c :: rest ∧ (c = 13 ∨ c = 10 ∨ c = 58)
  | _, _ => True

/-- The request line and the headers of the successful calls, in order (rejected headers leave no trace); `none` before the first successful
initialisation and after a failed one. -/
def acceptedStep (userAgent : Bytes) (a : AbsReq) (op : BuildOp) (st : Status) : AbsReq :=
  match op, st with
  | .init (some ⟨some me, p, some ho, fl⟩), .success =>
    some (requestLine me (effectivePath p), documentedHeaders userAgent ho fl.toNat)
  | .init _, .invalidParameter => a
  | .init _, _ => none
  | .addHeader (some f) (some v), .success => a.map (fun x => (x.1, x.2 ++ [(f, v)]))
  | .addRange s e, .success => a.map (fun x => (x.1, x.2 ++ [(ascii "Range", rangeText (requestedRange s e))]))
  | _, _ => a

/-- The same for a history. -/
def acceptedRun (userAgent : Bytes) : AbsReq → List (BuildOp × Status) → AbsReq
  | a, [] => a
  | a, (op, st) :: rest => acceptedRun userAgent (acceptedStep userAgent a op st) rest

end CoreHttp.Spec

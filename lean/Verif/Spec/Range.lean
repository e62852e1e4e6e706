import Verif.Spec.Request
import Verif.Spec.Decimal

/-! # Specification: byte-range header values -/

namespace CoreHttp.Spec

/-- Read a byte-range value `bytes=a-b`, `bytes=a-`, `bytes=-n`. -/
def readRange (v : Bytes) : Option ByteRange :=
  if ascii "bytes=" <+: v then
    let spec := v.drop 6
    let a := spec.takeWhile (· ≠ 45)
    match spec.dropWhile (· ≠ 45) with
    | [] => none
    | _ :: b =>
      if a = [] then (readDecimal b).map .last
      else if b = [] then (readDecimal a).map .from
      else match readDecimal a, readDecimal b with
        | some x, some y => some (.fromTo x y)
        | _, _ => none
  else none

/-- The range denoted by the arguments of HTTPClient_AddRangeHeader, as documented in core_http_client.h:699-758. -/
def requestedRange (rangeStart rangeEnd : Int) : ByteRange :=
  if rangeStart < 0 then .last rangeStart.natAbs
  else if rangeEnd = -1 then .from rangeStart.toNat
  else .fromTo rangeStart.toNat rangeEnd.toNat

/-- The documented text of a range. -/
def rangeText : ByteRange → Bytes
  | .fromTo a b => ascii "bytes=" ++ decimal a ++ ascii "-" ++ decimal b
  | .from a => ascii "bytes=" ++ decimal a ++ ascii "-"
  | .last n => ascii "bytes=-" ++ decimal n

/-- The arguments denote a range (32-bit arguments). -/
def ValidRange (rangeStart rangeEnd : Int) : Prop :=
  -1 ≤ rangeEnd ∧ (rangeStart < 0 → rangeEnd = -1) ∧ (rangeEnd ≠ -1 → rangeStart ≤ rangeEnd) ∧
    rangeStart ≠ -2147483648

instance (a b : Int) : Decidable (ValidRange a b) := inferInstanceAs (Decidable (_ ∧ _))

end CoreHttp.Spec

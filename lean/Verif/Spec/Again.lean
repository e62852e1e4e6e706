import Verif.Spec.Framing

/-!
# How servers read a request with several Content-Length lines (C112)

RFC 9112, 6.3, has a server refuse a request whose Content-Length lines differ, and allows it to refuse any repeated one (`readMessage` of Spec/Framing does).
Servers exist that take the first, or the last, or that accept repetitions of the same value.
-/

namespace CoreHttp.Spec
open CoreHttp

/-- Read one request with a body whose length is stated; `choose` picks the value to go by from those of the Content-Length lines, in order. -/
def readMessageBy (choose : List Bytes → Option Bytes) (bs : Bytes) : Option (Message × Bytes) := do
  let (line, hs, rest) ← readRequest bs
  let v ← choose (valuesOf "content-length" hs)
  let n ← readDecimal v
  if rest.length < n then none else some (⟨line, hs, rest.take n⟩, rest.drop n)

/-- The first value; the last value; the value, if all are the same. -/
def firstValue (vs : List Bytes) : Option Bytes := vs.head?
def lastValue (vs : List Bytes) : Option Bytes := vs.getLast?
def agreedValue : List Bytes → Option Bytes
  | [] => none
  | v :: vs => if ∀ x ∈ vs, x = v then some v else none

end CoreHttp.Spec

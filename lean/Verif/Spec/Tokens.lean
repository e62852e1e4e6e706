import Verif.Basic

/-!
# Values of list-valued header fields (RFC 9110, 5.6.1)
-/

namespace CoreHttp.Spec
open CoreHttp

/-- ASCII lower case. -/
def lowerAscii (c : UInt8) : UInt8 := if 65 ≤ c ∧ c ≤ 90 then c + 32 else c

/-- Optional white space: space or tab. -/
def isBlank (c : UInt8) : Bool := decide (c = 32 ∨ c = 9)

/-- Without leading and trailing white space. -/
def trimBlanks (s : Bytes) : Bytes := ((s.dropWhile isBlank).reverse.dropWhile isBlank).reverse

/-- The parts between commas. -/
def splitCommas : Bytes → List Bytes
  | [] => [[]]
  | c :: s =>
    if c = 44 then [] :: splitCommas s
    else match splitCommas s with
      | x :: xs => (c :: x) :: xs
      | [] => [[c]]

/-- The members of a comma-separated list, in lower case. -/
def listItems (s : Bytes) : List Bytes := (splitCommas s).map fun x => (trimBlanks x).map lowerAscii

example : listItems (ascii " Keep-Alive ,\tUpgrade") = [ascii "keep-alive", ascii "upgrade"] := by decide +kernel

end CoreHttp.Spec

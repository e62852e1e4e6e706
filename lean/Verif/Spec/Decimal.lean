import Verif.Basic

/-! # Specification: decimal text -/

namespace CoreHttp.Spec

/-- The minimal decimal text of a natural number (Lean's own `Nat.toDigits`), as ASCII bytes. -/
def decimal (n : Nat) : Bytes := (Nat.toDigits 10 n).map (fun c => UInt8.ofNat c.toNat)

/-- Value of one ASCII digit. -/
def digitVal (c : UInt8) : Option Nat := if 48 ≤ c.toNat ∧ c.toNat ≤ 57 then some (c.toNat - 48) else none

/-- Read a non-empty decimal number, most significant digit first; `none` when it is not one. -/
def readDecimalAux : Nat → Bytes → Option Nat
  | acc, [] => some acc
  | acc, c :: cs => match digitVal c with
    | none => none
    | some d => readDecimalAux (acc * 10 + d) cs

/-- Read a non-empty string of digits. -/
def readDecimal : Bytes → Option Nat
  | [] => none
  | c :: cs => readDecimalAux 0 (c :: cs)

end CoreHttp.Spec

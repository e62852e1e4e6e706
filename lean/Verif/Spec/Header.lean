import Verif.Spec.Receive
import Verif.Spec.Feed

/-! # Vocabulary for looking up headers -/

namespace CoreHttp.Spec
open CoreHttp

/-- The same character up to ASCII letter case: 'A'..'Z' are 65..90, the small letters follow at a distance of 32. -/
def sameLetter (a b : UInt8) : Prop :=
  a = b ∨ (65 ≤ a.toNat ∧ a.toNat ≤ 90 ∧ b.toNat = a.toNat + 32) ∨ (65 ≤ b.toNat ∧ b.toNat ≤ 90 ∧ a.toNat = b.toNat + 32)

/-- The same name up to ASCII letter case. -/
def sameName (s t : Bytes) : Prop := s.length = t.length ∧ ∀ (i : Nat) a b, s[i]? = some a → t[i]? = some b → sameLetter a b

/-- What a fresh parser reports for these bytes in one piece, when told at the end of a header section that there is no body (it then goes on with the
next message), and its verdict. -/
def readAll (P : Parser) (data : Bytes) : List PObs × Errno :=
  ((feedAll P (answers .noBody) [data]).1, (feedAll P (answers .noBody) [data]).2.2.2)

/-- The events of the (first) header section: up to the report of its end. -/
def headerSection : List PObs → List PObs
  | [] => []
  | o :: os => match o.ev with
    | .headersComplete _ _ _ _ => []
    | _ => o :: headerSection os

/-- Where the (first) header section ends, if its end is reported. -/
def sectionEnd : List PObs → Option Nat
  | [] => none
  | o :: os => match o.ev with
    | .headersComplete _ _ _ _ => some o.loc
    | _ => sectionEnd os

/-- The first header with this name in a list of headers is (f, v). -/
def FirstNamed (name : Bytes) (hs : List (Bytes × Bytes × Nat)) (v : Bytes) : Prop :=
  ∃ pre f c post, hs = pre ++ (f, v, c) :: post ∧ sameName name f ∧ ∀ x ∈ pre, ¬ sameName name x.1

/-- Some header has this name. -/
def HasName (name : Bytes) (hs : List (Bytes × Bytes × Nat)) : Prop := ∃ x ∈ hs, sameName name x.1

/-- The data ends after a field with this name, before its value. -/
def EndsInField (name : Bytes) (os : List PObs) : Prop := ∃ f, (view os).pending = some (f, none) ∧ sameName name f

/-- Location and length delimit the bytes `v` of the first `len` bytes of a block; an empty value has location NULL. -/
def Delimits (blk : Bytes) (len : Nat) (loc : Option Nat) (n : Nat) (v : Bytes) : Prop :=
  n = v.length ∧ (v = [] → loc = none) ∧ (v ≠ [] → ∃ a, loc = some a ∧ a + n ≤ len ∧ (blk.drop a).take n = v)

/-- What the caller of HTTPClient_ReadHeader must provide: a response buffer of at least `bufferLen` bytes, at least 1, and a non-empty name. -/
structure ReadPre {σ : Type} (strict : Bool) (P : Parser) (resp : Resp σ) (b : Nat) (name : Bytes) (m : Mem) : Prop where
  parser : ParserOk strict P
  buf : resp.pBuffer = some b
  pos : 0 < resp.bufferLen
  room : resp.bufferLen ≤ (m b).length
  name : 0 < name.length

end CoreHttp.Spec

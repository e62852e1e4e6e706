import Verif.Spec.View

/-!
# Header values that arrive in several pieces

A parser that accepts folded header lines reports the lines of a value one by one; between them there are bytes (the line ends) that do not belong to
the value. `valuePieces` says where the pieces of each value are, `inPlace` what is found from the place where a value begins.
-/

namespace CoreHttp.Spec
open CoreHttp

/-- The pieces (location, length) of the values of the complete headers; whether a header is pending, and the pieces of its value so far. -/
structure Pieces where
  done : List (List (Nat × Nat))
  field : Bool
  value : List (Nat × Nat)
deriving DecidableEq, Repr

/-- A pending header with a value is complete. -/
def Pieces.flush (s : Pieces) : Pieces :=
  match s.field, s.value with
  | true, x :: xs => ⟨s.done ++ [x :: xs], false, []⟩
  | _, _ => s

/-- One event. -/
def Pieces.step (s : Pieces) (o : PObs) : Pieces :=
  match o.ev with
  | .status _ _ _ | .statusComplete _ => { s with field := false, value := [] }
  | .headerField _ _ => { s.flush with field := true }
  | .headerValue _ _ => { s with value := s.value ++ [(o.loc, o.data.length)] }
  | .headersComplete _ _ _ _ => s.flush
  | _ => s

/-- The pieces, after a list of events. -/
def pieces (os : List PObs) : Pieces := os.foldl Pieces.step ⟨[], false, []⟩

/-- The pieces of the values of the complete headers, one list per header. -/
def valuePieces (os : List PObs) : List (List (Nat × Nat)) := (pieces os).done

/-- Where a value begins. -/
def begins (ps : List (Nat × Nat)) : Nat := (ps.head?.getD (0, 0)).1

/-- The bytes of a value: those of its pieces, without what is between them. -/
def bytesAt (stream : Bytes) (ps : List (Nat × Nat)) : Bytes := (ps.map fun p => slice stream p.1 p.2).flatten

/-- Each piece begins where the one before it ends: the value was not folded. -/
def Contiguous : List (Nat × Nat) → Prop
  | (a, n) :: (c, m) :: ps => c = a + n ∧ Contiguous ((c, m) :: ps)
  | _ => True

/-- The locations of the values reported to the user's callback. -/
def reportedAt : List (Ev PLog) → List Nat
  | [] => []
  | .header _ _ x _ _ :: es => x :: reportedAt es
  | _ :: es => reportedAt es

/-- Each value replaced by as many bytes of the received data, from the place where the value begins. -/
def inPlace (stream : Bytes) (headers : List (Bytes × Bytes × Nat)) (ps : List (List (Nat × Nat))) : List (Bytes × Bytes × Nat) :=
  List.zipWith (fun h p => (h.1, slice stream (begins p) h.2.1.length, h.2.2)) headers ps

/-- Names, lengths of the values, status codes. -/
def lens (hs : List (Bytes × Bytes × Nat)) : List (Bytes × Nat × Nat) := hs.map fun h => (h.1, h.2.1.length, h.2.2)

/-- The events without the further pieces of values: a value event right after a value event is left out. -/
def firstPieces : Bool → List PObs → List PObs
  | _, [] => []
  | last, o :: os => match o.ev with
    | .headerValue _ _ => if last then firstPieces true os else o :: firstPieces true os
    | _ => o :: firstPieces false os

end CoreHttp.Spec

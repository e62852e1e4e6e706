import Verif.Spec.SendRecv

/-! # Vocabulary for comparing runs -/

namespace CoreHttp.Spec
open CoreHttp
variable {σ : Type}

/-- A trace without the ghost entries that show the contents of the response buffer. -/
def observable : List (Ev PLog) → List (Ev PLog)
  | [] => []
  | .parserEvent (.mem _) :: es => observable es
  | e :: es => e :: observable es

@[simp] theorem observable_append (a c : List (Ev PLog)) : observable (a ++ c) = observable a ++ observable c := by
  induction a with
  | nil => rfl
  | cons x xs ih =>
    cases x with
    | parserEvent p => cases p <;> simp [observable, ih]
    | _ => simp [observable, ih]

/-- The application's receive function writes every byte it claims to have received. -/
def RecvFills (recv : σ → Nat → Int × Bytes × σ) : Prop := ∀ s len, (recv s len).1 ≤ ((recv s len).2.1.length : Int)

end CoreHttp.Spec

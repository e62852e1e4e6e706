import Verif.Spec.RequestHistory

/-! # Specification: how large a buffer a request needs (C120)

A request is planned as the description given to HTTPClient_InitializeRequestHeaders and a list of additions. Its size is the number of bytes of the text
"request line, documented headers, added headers, blank line". -/

namespace CoreHttp.Spec.Sizing
open CoreHttp Spec

/-- One addition to the request: a header or a byte range. -/
inductive Piece where
  | header (field value : Bytes)
  | range (first last : Int)
deriving Repr

/-- The call that makes it. -/
def Piece.call : Piece → BuildOp
  | .header f v => .addHeader (some f) (some v)
  | .range s e => .addRange s e

/-- The header it stands for. -/
def Piece.line : Piece → Bytes × Bytes
  | .header f v => (f, v)
  | .range s e => (ascii "Range", rangeText (requestedRange s e))

/-- The arguments are what the documentation asks for: non-empty strings without line ends (and without colon in the name); an int32_t range that denotes
one. -/
def Piece.Good : Piece → Prop
  | .header f v => f ≠ [] ∧ v ≠ [] ∧ CleanField f ∧ CleanValue v
  | .range s e => (-2147483648 ≤ s ∧ s ≤ 2147483647) ∧ (-2147483648 ≤ e ∧ e ≤ 2147483647) ∧ ValidRange s e

/-- The planned text. -/
def plannedText (userAgent method : Bytes) (path : Option Bytes) (host : Bytes) (flags : UInt32) (ps : List Piece) : Bytes :=
  requestBlock (requestLine method (effectivePath path)) (documentedHeaders userAgent host flags.toNat ++ ps.map Piece.line)

/-- The calls that build it. -/
def plannedCalls (method : Bytes) (path : Option Bytes) (host : Bytes) (flags : UInt32) (ps : List Piece) : List BuildOp :=
  .init (some ⟨some method, path, some host, flags⟩) :: ps.map Piece.call

end CoreHttp.Spec.Sizing

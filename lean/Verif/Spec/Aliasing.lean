import Verif.Model.RequestPtr
import Verif.Spec.Request

/-! # Specification: strings given by pointer and length -/

namespace CoreHttp

/-- The string that (pointer, length) designates in memory `m`. -/
def Src.bytes (m : Mem) : Src → Bytes
  | .lit s => s
  | .at blk off len => ((m blk).drop off).take len

/-- All `len` bytes exist. -/
def Src.Readable (m : Mem) : Src → Prop
  | .lit _ => True
  | .at blk off len => off + len ≤ (m blk).length

/-- The string is not in block `b`, or ends at or before offset `lo` of it, or starts at or after offset `hi`. -/
def Src.Clear (b lo hi : Nat) : Src → Prop
  | .lit _ => True
  | .at blk off len => blk ≠ b ∨ off + len ≤ lo ∨ hi ≤ off

instance (m : Mem) (s : Src) : Decidable (s.Readable m) := by cases s <;> unfold Src.Readable <;> infer_instance
instance (b lo hi : Nat) (s : Src) : Decidable (s.Clear b lo hi) := by cases s <;> unfold Src.Clear <;> infer_instance

/-- The offset at which the host name is put in an initialised request: after the request line, the User-Agent line (unless bit 1 of the
flags says otherwise), and "Host: ". -/
def Spec.hostOffset (userAgent method path : Bytes) (flags : Nat) : Nat :=
  (Spec.requestLine method path ++ (if flags.testBit 1 then [] else Spec.headerLine (ascii "User-Agent") userAgent) ++ ascii "Host: ").length

end CoreHttp

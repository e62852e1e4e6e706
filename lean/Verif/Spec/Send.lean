import Verif.Spec.Trace
import Verif.Spec.Decimal
import Verif.Spec.Request
import Verif.Spec.Objects

/-! # Specification: what HTTPClient_Send puts on the wire -/

namespace CoreHttp.Spec
open CoreHttp

/-- A Content-Length header is added for a non-empty body unless HTTP_SEND_DISABLE_CONTENT_LENGTH_FLAG (bit 0) is set. -/
def addsContentLength (bodyLen : Nat) (sendFlags : Nat) : Bool := decide (0 < bodyLen) && !sendFlags.testBit 0

/-- The header block put on the wire for prepared headers `block`. -/
def wireHeaders (block : Bytes) (bodyLen : Nat) (sendFlags : Nat) : Bytes :=
  if addsContentLength bodyLen sendFlags then
    stripBlankLine block ++ headerLine (ascii "Content-Length") (decimal bodyLen) ++ crlf
  else block

end CoreHttp.Spec

import Verif.Spec.Wire

/-! # Where the body of a response is -/

namespace CoreHttp.Spec
open CoreHttp

/-- The position of the first body byte in the response as sent: directly after the header section, and in a chunked response after the first size line;
`none` if the body is empty. -/
def Response.bodyAt (r : Response) : Option Nat :=
  match r.content with
  | .none => none
  | .length d => if d = [] then none else some r.head.length
  | .chunked [] _ _ _ => none
  | .chunked (c :: _) _ _ _ => some (r.head.length + (c.size ++ c.ext ++ crlf).length)

end CoreHttp.Spec

import Verif.Model.Parser
import Verif.Spec.ParserContract

/-!
# Byte-at-a-time parsers

A `Machine` reads one byte at a time. `Machine.toParser` turns it into an incremental parser that reports spans the way llhttp does: a span that
is open at the end of the data is reported up to the end of the data, and continues at the start of the next data. Used for concrete parsers:
that the parser contract can be met, refutations, fragmentation independence and the round trip theorem.
-/

namespace CoreHttp

/-- What a span holds. -/
inductive SpanK where
  | status (code : Nat)
  | field
  | value
  | body
deriving DecidableEq, Repr

/-- The callback for a span. -/
def SpanK.ev : SpanK → Nat → Nat → PEv
  | .status code, off, len => .status off len code
  | .field, off, len => .headerField off len
  | .value, off, len => .headerValue off len
  | .body, off, len => .body off len

/-- What a machine does while reading a byte: end the open span before this byte (`spanEnd`) or after it (`spanEndIncl`), start a span at this
byte, or report an event. -/
inductive MEv where
  | messageBegin
  | spanStart (k : SpanK)
  | spanEnd
  | spanEndIncl
  | statusComplete (code : Nat)
  | messageComplete
deriving DecidableEq, Repr

/-- The actions for one byte. Only the answer to `headersComplete` matters. -/
inductive MTree (A : Type) where
  | done (a : A)
  | fail (e : Errno)
  | act (e : MEv) (t : MTree A)
  /-- end of the header section: one continuation for "continue", one for "no body" -/
  | headers (contentLength : UInt64) (connClose keepAlive : Bool) (cont noBody : MTree A)
deriving Repr

/-- A byte-at-a-time parser. -/
structure Machine where
  A : Type
  init : A
  step : A → UInt8 → MTree A

namespace Machine
variable (M : Machine)

/-- Parser state: running, with the kind of the open span, or stopped with an error. -/
inductive St (A : Type) where
  | live (a : A) (o : Option SpanK)
  | dead (e : Errno)

variable {A : Type}

/-- Report a span; only a header value callback may ask to stop. -/
def callSpan (k : SpanK) (off len p : Nat) (t : PTree (St A)) : PTree (St A) :=
  .call (k.ev off len) fun r => if r = .user then .done .user p (.dead .user) else t

/-- The actions for the byte at position `p`; `o` is the open span and its start. -/
def byteTree (k : A → Option (SpanK × Nat) → PTree (St A)) (p : Nat) : MTree A → Option (SpanK × Nat) → PTree (St A)
  | .done a, o => k a o
  | .fail e, _ => .done e p (.dead e)
  | .act .messageBegin t, o => .call .messageBegin fun _ => byteTree k p t o
  | .act (.spanStart sk) t, _ => byteTree k p t (some (sk, p))
  | .act .spanEnd t, some (sk, s) => callSpan sk s (p - s) p (byteTree k p t none)
  | .act .spanEnd t, none => byteTree k p t none
  | .act .spanEndIncl t, some (sk, s) => callSpan sk s (p + 1 - s) (p + 1) (byteTree k p t none)
  | .act .spanEndIncl t, none => byteTree k p t none
  | .act (.statusComplete code) t, o => .call (.statusComplete code) fun _ => byteTree k p t o
  | .act .messageComplete t, o => .call .messageComplete fun _ => byteTree k p t o
  | .headers cl cc ka t1 t2, o => .call (.headersComplete (p + 1) cl cc ka) fun r =>
      match r with
      | .pause => .done .paused (p + 1) (.dead .paused)
      | .user => .done .user (p + 1) (.dead .user)
      | .noBody => byteTree k p t2 o
      | .continue_ => byteTree k p t1 o

/-- Read the data from position `p` on. -/
def run (p : Nat) : Bytes → M.A → Option (SpanK × Nat) → PTree (St M.A)
  | [], a, none => .done .ok p (.live a none)
  | [], a, some (k, s) => callSpan k s (p - s) p (.done .ok p (.live a (some k)))
  | c :: cs, a, o => byteTree (fun a o => run (p + 1) cs a o) p (M.step a c) o

/-- The incremental parser. -/
def toParser : Parser where
  St := St M.A
  init := .live M.init none
  exec
    | .live a o, data => M.run 0 data a (o.map (·, 0))
    | .dead e, _ => .done e 0 (.dead e)
  resume s := s

end Machine
end CoreHttp

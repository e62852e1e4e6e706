import Verif.Model.Parser

/-!
# What the library relies on about the parser

A protocol automaton for the callbacks and bounds for the locations. `base` is the number of stream bytes given to the parser in earlier
calls (= location of the current data in the response buffer), `dlen` the length of the current data, `lo` the end of what has been
reported so far; all positions in the contract are absolute stream positions.
-/

namespace CoreHttp.Spec
open CoreHttp

/-- Where the parser is in a message. -/
inductive Phase where
  /-- before a message -/
  | idle
  /-- in the status line -/
  | line
  /-- status line complete, no header field yet -/
  | hdrs
  /-- in (or after) a field name, its value not begun -/
  | field
  /-- in (or after) a header value -/
  | value
  /-- after the header section -/
  | body
  /-- after the header section of a message declared to have no body -/
  | nobody
  /-- like `field` / `value`, in the trailer section -/
  | tfield
  | tvalue
  /-- after a message -/
  | complete
  /-- a callback asked for a pause -/
  | paused
  /-- a callback asked to stop -/
  | stopped
deriving DecidableEq, Repr

/-- A span lies in the current data, after everything reported before; it starts inside the data unless the data is empty. -/
def SpanOk (base dlen lo off len : Nat) : Prop := lo ≤ base + off ∧ off + len ≤ dlen ∧ (off < dlen ∨ dlen = 0)

/-- Which events may occur in which phase. `strict`: a header value is continued in a further event only when it was cut by the end of the data, at the start of the next
data (i.e. there are no folded header lines). For field names this is required in any case. -/
def EvOk (strict : Bool) (base dlen : Nat) (ph : Phase) (lo : Nat) : PEv → Prop
  | .messageBegin => ph = .idle ∨ ph = .complete
  | .status off len _ => ph = .line ∧ SpanOk base dlen lo off len
  | .statusComplete _ => ph = .line
  | .headerField off len => SpanOk base dlen lo off len ∧
      (((ph = .hdrs ∨ ph = .value ∨ ph = .body ∨ ph = .tvalue) ∧ 0 < len) ∨
       ((ph = .field ∨ ph = .tfield) ∧ off = 0 ∧ base = lo))
  | .headerValue off len => SpanOk base dlen lo off len ∧ (ph = .field ∨ ph = .value ∨ ph = .tfield ∨ ph = .tvalue) ∧
      (strict = true → (ph = .value ∨ ph = .tvalue) → off = 0 ∧ base = lo)
  | .headersComplete at_ _ _ _ => (ph = .hdrs ∨ ph = .value) ∧ lo < base + at_ ∧ 0 < at_ ∧ at_ ≤ dlen
  | .body off len => ph = .body ∧ SpanOk base dlen lo off len
  | .messageComplete => ph = .body ∨ ph = .nobody ∨ ph = .tvalue

/-- What callbacks may return. -/
def RetOk : PEv → CbRet → Prop
  | .headersComplete _ _ _ _, r => r ≠ .user
  | .headerValue _ _, r => r = .continue_ ∨ r = .user
  | _, r => r = .continue_

/-- The phase after an event. -/
def Phase.next (ph : Phase) : PEv → CbRet → Phase
  | .messageBegin, _ => .line
  | .status _ _ _, _ => .line
  | .statusComplete _, _ => .hdrs
  | .headerField _ _, _ => if ph = .body ∨ ph = .tfield ∨ ph = .tvalue then .tfield else .field
  | .headerValue _ _, .user => .stopped
  | .headerValue _ _, _ => if ph = .tfield ∨ ph = .tvalue then .tvalue else .value
  | .headersComplete _ _ _ _, .noBody => .nobody
  | .headersComplete _ _ _ _, .pause => .paused
  | .headersComplete _ _ _ _, .user => .stopped
  | .headersComplete _ _ _ _, .continue_ => .body
  | .body _ _, _ => .body
  | .messageComplete, _ => .complete

/-- The end of what has been reported after an event. -/
def endPos (base lo : Nat) : PEv → Nat
  | .status off len _ => base + off + len
  | .headerField off len => base + off + len
  | .headerValue off len => base + off + len
  | .body off len => base + off + len
  | .headersComplete at_ _ _ _ => base + at_
  | _ => lo

/-- What may be returned by `llhttp_execute` in which phase; `Inv` relates a parser state to phase and positions between calls. -/
def DoneOk {S : Type} (Inv : S → Phase → Nat → Nat → Prop) (base dlen : Nat) (er : Errno) (ep : Nat) (s : S) (ph : Phase) (lo : Nat) : Prop :=
  (er = .ok → Inv s ph (base + dlen) lo) ∧
  (er = .paused ↔ ph = .paused) ∧ (er = .paused → base + ep = lo) ∧
  (er = .user ↔ ph = .stopped) ∧
  (er = .pausedUpgrade → ph = .complete) ∧
  er ≠ .invalidEofState

/-- Every path through the interaction tree honours the contract. -/
def TreeOk {S : Type} (strict : Bool) (Inv : S → Phase → Nat → Nat → Prop) (base dlen : Nat) : PTree S → Phase → Nat → Prop
  | .done er ep s, ph, lo => DoneOk Inv base dlen er ep s ph lo
  | .call e k, ph, lo => EvOk strict base dlen ph lo e ∧
      ∀ r, RetOk e r → TreeOk strict Inv base dlen (k r) (ph.next e r) (endPos base lo e)

/-- The parser honours the contract. -/
def ParserOk (strict : Bool) (P : Parser) : Prop :=
  ∃ Inv : P.St → Phase → Nat → Nat → Prop, Inv P.init .idle 0 0 ∧
    ∀ s ph base lo data, Inv s ph base lo → lo ≤ base → TreeOk strict Inv base data.length (P.exec s data) ph lo

end CoreHttp.Spec

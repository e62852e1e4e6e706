import Verif.Ref.MachineOk
import Verif.Spec.Decimal
import Verif.Spec.Tokens

/-!
# A reference HTTP/1.x response parser

Not part of the repository (llhttp is an empty submodule): a byte-at-a-time parser for responses, written for this model, that reports the same
callbacks in the same order. It honours the parser contract (theorem `http_ok`), so nothing proved from the contract is vacuous, and it gives
refutations and the round trip theorem concrete byte streams. Simplifications: bare LF line ends and folded lines are errors; a
Transfer-Encoding field that does not end in `chunked` does not undo an earlier one that does.
-/

namespace CoreHttp.Ref
open Spec

/-- ASCII lower case. -/
def lower (c : UInt8) : UInt8 := if 65 ≤ c ∧ c ≤ 90 then c + 32 else c

/-- RFC 9110 tchar: visible characters that are not delimiters. -/
def isToken (c : UInt8) : Bool :=
  decide (33 ≤ c ∧ c ≤ 126) && !(ascii "\"(),/:;<=>?@[\\]{}").contains c

/-- Decimal digit. -/
def isDigit (c : UInt8) : Bool := decide (48 ≤ c ∧ c ≤ 57)

/-- Value of a hexadecimal digit. -/
def hexVal (c : UInt8) : Option Nat :=
  if 48 ≤ c ∧ c ≤ 57 then some (c.toNat - 48)
  else if 97 ≤ c ∧ c ≤ 102 then some (c.toNat - 87)
  else if 65 ≤ c ∧ c ≤ 70 then some (c.toNat - 55)
  else none

/-- What the parser remembers of a header section. -/
structure Info where
  minor : Nat
  code : Nat
  cl : Option Nat
  chunked : Bool
  close : Bool
  keepAlive : Bool
deriving DecidableEq, Repr

/-- Take a header (name in lower case) into account. -/
def Info.note (i : Info) (name value : Bytes) : Except Errno Info :=
  if name = ascii "content-length" then
    if i.cl.isSome || i.chunked then .error .unexpectedContentLength
    else match readDecimal (trimBlanks value) with
      | some n => if n < 18446744073709551615 then .ok { i with cl := some n } else .error .invalidContentLength
      | none => .error .invalidContentLength
  else if name = ascii "transfer-encoding" then
    if i.cl.isSome then .error .unexpectedContentLength
    else if (listItems value).getLast? = some (ascii "chunked") then .ok { i with chunked := true } else .ok i
  else if name = ascii "connection" then
    .ok { i with
      close := i.close || decide (ascii "close" ∈ listItems value)
      keepAlive := i.keepAlive || decide (ascii "keep-alive" ∈ listItems value) }
  else .ok i

/-- Responses that never have a body. -/
def Info.noBody (i : Info) : Bool := decide (i.code / 100 = 1 ∨ i.code = 204 ∨ i.code = 304)

/-- The connection closes after this message. -/
def Info.closes (i : Info) : Bool := i.close || (decide (i.minor = 0) && !i.keepAlive)

/-- Parser states. -/
inductive A where
  | start
  | proto (rest : Bytes)
  | minor
  | verSp (m : Nat)
  | code (m n k : Nat)
  | reasonStart (m n : Nat)
  | reason (m n : Nat)
  | lineLF (m n : Nat)
  | hdr (i : Info) (tr any : Bool)
  | field (i : Info) (tr any : Bool) (name : Bytes)
  | valueWs (i : Info) (tr : Bool) (name : Bytes)
  | value (i : Info) (tr : Bool) (name val : Bytes)
  | valLF (i : Info) (tr : Bool) (name val : Bytes)
  | endLF (i : Info) (tr any : Bool)
  /-- n + 1 bytes of body remain, none read -/
  | bodyStart (i : Info) (n : Nat)
  /-- n + 1 bytes of body remain, some read -/
  | bodyIn (i : Info) (n : Nat)
  | eofStart
  | eofIn
  | chunkSize (i : Info) (n : Nat) (any : Bool)
  | chunkExt (i : Info) (n : Nat)
  | chunkLF (i : Info) (n : Nat)
  | chunkStart (i : Info) (n : Nat)
  | chunkIn (i : Info) (n : Nat)
  | chunkCR (i : Info)
  | chunkCRLF (i : Info)
  | complete (close : Bool)
deriving DecidableEq, Repr

/-- The phase (before the open span). -/
def A.phase : A → Phase
  | .start => .idle
  | .proto _ | .minor | .verSp _ | .code _ _ _ | .reasonStart _ _ | .reason _ _ | .lineLF _ _ => .line
  | .hdr _ tr any | .field _ tr any _ | .endLF _ tr any =>
      if tr then (if any then .tvalue else .body) else (if any then .value else .hdrs)
  | .valueWs _ tr _ | .value _ tr _ _ => if tr then .tfield else .field
  | .valLF _ tr _ _ => if tr then .tvalue else .value
  | .bodyStart _ _ | .bodyIn _ _ | .eofStart | .eofIn | .chunkSize _ _ _ | .chunkExt _ _ | .chunkLF _ _ | .chunkStart _ _
  | .chunkIn _ _ | .chunkCR _ | .chunkCRLF _ => .body
  | .complete _ => .complete

/-- The open span. -/
def A.opened : A → Option SpanK
  | .reason _ n => some (.status n)
  | .field _ _ _ _ => some .field
  | .value _ _ _ _ => some .value
  | .bodyIn _ _ | .eofIn | .chunkIn _ _ => some .body
  | _ => none

/-- The message ends here. -/
def finish (i : Info) : MTree A := .act .messageComplete (.done (.complete i.closes))

/-- What follows the header section. As in llhttp, a status that rules out a body matters only without Content-Length and chunked coding. -/
def afterHeaders (i : Info) : MTree A :=
  if i.chunked then .done (.chunkSize i 0 false)
  else match i.cl with
    | some 0 => finish i
    | some (n + 1) => .done (.bodyStart i n)
    | none => if i.noBody then finish i else .done .eofStart

/-- Read one byte. CR = 13, LF = 10. -/
def step : A → UInt8 → MTree A
  | .start, c =>
    if c = 13 ∨ c = 10 then .done .start
    else if c = 72 then .act .messageBegin (.done (.proto (ascii "TTP/1.")))
    else .fail .invalidConstant
  | .complete close, c =>
    if c = 13 ∨ c = 10 then .done (.complete close)
    else if close then .fail .closedConnection
    else if c = 72 then .act .messageBegin (.done (.proto (ascii "TTP/1.")))
    else .fail .invalidConstant
  | .proto [], c => if c = 49 then .done (.verSp 1) else if c = 48 then .done (.verSp 0) else .fail .invalidVersion
  | .proto [x], c => if c = x then .done .minor else .fail .invalidConstant
  | .proto (x :: y :: rest), c => if c = x then .done (.proto (y :: rest)) else .fail .invalidConstant
  | .minor, c => if c = 49 then .done (.verSp 1) else if c = 48 then .done (.verSp 0) else .fail .invalidVersion
  | .verSp m, c => if c = 32 then .done (.code m 0 0) else .fail .invalidVersion
  | .code m n k, c =>
    if k < 3 then if isDigit c then .done (.code m (10 * n + (c.toNat - 48)) (k + 1)) else .fail .invalidStatus
    else if c = 32 then .done (.reasonStart m n)
    else if c = 13 then .done (.lineLF m n)
    else .fail .invalidStatus
  | .reasonStart m n, c =>
    if c = 13 then .done (.lineLF m n)
    else if c = 10 then .fail .strict
    else .act (.spanStart (.status n)) (.done (.reason m n))
  | .reason m n, c =>
    if c = 13 then .act .spanEnd (.done (.lineLF m n))
    else if c = 10 then .fail .strict
    else .done (.reason m n)
  | .lineLF m n, c =>
    if c = 10 then .act (.statusComplete n) (.done (.hdr ⟨m, n, none, false, false, false⟩ false false)) else .fail .lfExpected
  | .hdr i tr any, c =>
    if c = 13 then .done (.endLF i tr any)
    else if isToken c then .act (.spanStart .field) (.done (.field i tr any [lower c]))
    else .fail .invalidHeaderToken
  | .field i tr any name, c =>
    if c = 58 then .act .spanEnd (.done (.valueWs i tr name))
    else if isToken c then .done (.field i tr any (name ++ [lower c]))
    else .fail .invalidHeaderToken
  | .valueWs i tr name, c =>
    if c = 32 ∨ c = 9 then .done (.valueWs i tr name)
    else if c = 13 then .act (.spanStart .value) (.act .spanEnd (.done (.valLF i tr name [])))
    else if c = 10 ∨ c = 0 then .fail .invalidHeaderToken
    else .act (.spanStart .value) (.done (.value i tr name [c]))
  | .value i tr name val, c =>
    if c = 13 then .act .spanEnd (.done (.valLF i tr name val))
    else if c = 10 ∨ c = 0 then .fail .invalidHeaderToken
    else .done (.value i tr name (val ++ [c]))
  | .valLF i tr name val, c =>
    if c = 10 then
      if tr then .done (.hdr i tr true)
      else match i.note name val with
        | .ok i' => .done (.hdr i' tr true)
        | .error .invalidContentLength => .fail .invalidContentLength
        | .error _ => .fail .unexpectedContentLength
    else .fail .lfExpected
  | .endLF i tr _, c =>
    if c = 10 then
      if tr then finish i
      else .headers (UInt64.ofNat (i.cl.getD 0)) i.close i.keepAlive (afterHeaders i) (finish i)
    else .fail .strict
  | .bodyStart i 0, _ => .act (.spanStart .body) (.act .spanEndIncl (finish i))
  | .bodyStart i (n + 1), _ => .act (.spanStart .body) (.done (.bodyIn i n))
  | .bodyIn i 0, _ => .act .spanEndIncl (finish i)
  | .bodyIn i (n + 1), _ => .done (.bodyIn i n)
  | .eofStart, _ => .act (.spanStart .body) (.done .eofIn)
  | .eofIn, _ => .done .eofIn
  | .chunkSize i n any, c =>
    match hexVal c with
    | some d => .done (.chunkSize i (16 * n + d) true)
    | none =>
      if any then
        if c = 13 then .done (.chunkLF i n) else if c = 59 then .done (.chunkExt i n) else .fail .invalidChunkSize
      else .fail .invalidChunkSize
  | .chunkExt i n, c => if c = 13 then .done (.chunkLF i n) else if c = 10 then .fail .strict else .done (.chunkExt i n)
  | .chunkLF i n, c =>
    if c = 10 then
      match n with
      | 0 => .done (.hdr i true false)
      | n + 1 => .done (.chunkStart i n)
    else .fail .lfExpected
  | .chunkStart i 0, _ => .act (.spanStart .body) (.act .spanEndIncl (.done (.chunkCR i)))
  | .chunkStart i (n + 1), _ => .act (.spanStart .body) (.done (.chunkIn i n))
  | .chunkIn i 0, _ => .act .spanEndIncl (.done (.chunkCR i))
  | .chunkIn i (n + 1), _ => .done (.chunkIn i n)
  | .chunkCR i, c => if c = 13 then .done (.chunkCRLF i) else .fail .strict
  | .chunkCRLF i, c => if c = 10 then .done (.chunkSize i 0 false) else .fail .lfExpected

/-- The machine. -/
def http : Machine := ⟨A, .start, step⟩

/-- The reference parser. -/
def httpParser : Parser := http.toParser

theorem finish_ok {i : Info} {ph : Phase} {st lt : Bool} (h : ph = .body ∨ ph = .nobody ∨ ph = .tvalue) :
    Machine.ActOk strict A.phase A.opened (finish i) ph none st lt := ⟨rfl, h, rfl, rfl⟩

/-- The reference parser honours the parser contract. -/
theorem http_machine_ok : Machine.Ok true http A.phase A.opened := by
  refine ⟨⟨rfl, rfl⟩, ?_, ?_, ?_⟩
  · intro a
    cases a <;> simp only [A.phase] <;> (repeat' split) <;> simp
  · intro a k h
    cases a <;> simp [A.opened] at h <;> subst h <;> simp only [A.phase, Machine.startOk] <;> (repeat' split) <;> simp
  · intro a c
    show Machine.ActOk true A.phase A.opened (step a c) a.phase a.opened false false
    cases a with
    | proto rest =>
      match rest with
      | [] => simp only [step]; (repeat' split) <;> simp [Machine.ActOk, A.phase, A.opened]
      | [x] => simp only [step]; (repeat' split) <;> simp [Machine.ActOk, A.phase, A.opened]
      | x :: y :: rest => simp only [step]; (repeat' split) <;> simp [Machine.ActOk, A.phase, A.opened]
    | bodyStart i n =>
      cases n with
      | zero => exact ⟨rfl, rfl, rfl, .body, rfl, finish_ok (.inl rfl)⟩
      | succ n => exact ⟨rfl, rfl, rfl, rfl, rfl⟩
    | bodyIn i n =>
      cases n with
      | zero => exact ⟨.body, rfl, finish_ok (.inl rfl)⟩
      | succ n => exact ⟨rfl, rfl⟩
    | chunkStart i n =>
      cases n with
      | zero => exact ⟨rfl, rfl, rfl, .body, rfl, rfl, rfl⟩
      | succ n => exact ⟨rfl, rfl, rfl, rfl, rfl⟩
    | chunkIn i n =>
      cases n with
      | zero => exact ⟨.body, rfl, rfl, rfl⟩
      | succ n => exact ⟨rfl, rfl⟩
    | endLF i tr any =>
      simp only [step]
      by_cases hc : c = 10
      · rw [if_pos hc]
        cases tr with
        | true => exact finish_ok (by cases any <;> simp [A.phase])
        | false =>
          refine ⟨rfl, rfl, by cases any <;> simp [A.phase], ?_, finish_ok (.inr (.inl rfl))⟩
          unfold afterHeaders
          split
          · exact ⟨rfl, rfl⟩
          · split
            · exact finish_ok (.inl rfl)
            · exact ⟨rfl, rfl⟩
            · split
              · exact finish_ok (.inl rfl)
              · exact ⟨rfl, rfl⟩
      · rw [if_neg hc]
        refine ⟨?_, by decide⟩
        cases tr <;> cases any <;> simp [A.phase]
    | chunkLF i n =>
      simp only [step]
      split
      · cases n <;> exact ⟨rfl, rfl⟩
      · exact ⟨by simp [A.phase], by decide⟩
    | valLF i tr name val =>
      simp only [step]
      split
      · split
        · rename_i h; subst h; exact ⟨rfl, rfl⟩
        · split
          · exact ⟨rfl, rfl⟩
          · exact ⟨by cases tr <;> simp [A.phase], by decide⟩
          · exact ⟨by cases tr <;> simp [A.phase], by decide⟩
      · exact ⟨by cases tr <;> simp [A.phase], by decide⟩
    | hdr i tr any =>
      simp only [step]; (repeat' split) <;> cases tr <;> cases any <;>
        simp [Machine.ActOk, A.phase, A.opened, Machine.startOk]
    | field i tr any name =>
      simp only [step]; (repeat' split) <;> cases tr <;> cases any <;>
        simp [Machine.ActOk, A.phase, A.opened, Machine.startOk, Machine.afterSpan, SpanK.ev, Phase.next]
    | valueWs i tr name =>
      simp only [step]; (repeat' split) <;> cases tr <;>
        simp [Machine.ActOk, A.phase, A.opened, Machine.startOk, Machine.afterSpan, SpanK.ev, Phase.next]
    | value i tr name val =>
      simp only [step]; (repeat' split) <;> cases tr <;>
        simp [Machine.ActOk, A.phase, A.opened, Machine.startOk, Machine.afterSpan, SpanK.ev, Phase.next]
    | _ =>
      simp only [step]
      (repeat' split) <;> simp [Machine.ActOk, A.phase, A.opened, Machine.startOk, Machine.afterSpan, SpanK.ev, Phase.next]

/-- The reference parser does not switch protocols (see Verif/Ref/Upgrade.lean). -/
theorem http_never_upgrade (a : A) (c : UInt8) : (step a c).Never .pausedUpgrade := by
  cases a with
  | proto rest => match rest with
    | [] | [x] | x :: y :: rest => simp only [step]; (repeat' split) <;> simp [MTree.Never]
  | bodyStart i n => cases n <;> exact trivial
  | bodyIn i n => cases n <;> exact trivial
  | chunkStart i n => cases n <;> exact trivial
  | chunkIn i n => cases n <;> exact trivial
  | endLF i tr any =>
    simp only [step, finish, afterHeaders]
    (repeat' split) <;> simp [MTree.Never]
  | _ => simp only [step]; (repeat' split) <;> simp [MTree.Never]

/-- The reference parser honours the parser contract. -/
theorem httpParser_ok : ParserOk true httpParser := Machine.toParser_ok http_machine_ok

end CoreHttp.Ref

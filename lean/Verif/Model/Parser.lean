import Verif.Model.World

/-!
# The interface of the third-party parser (llhttp)

llhttp is not part of this repository (source/dependency/3rdparty/llhttp is an empty submodule). It is modelled as an unknown incremental
parser: a step of `llhttp_execute` is a finite interaction tree of callback invocations ending in an error code. What the library relies on
is stated as a contract in Verif/Spec/ParserContract.lean; every theorem about receiving holds for every parser satisfying it.
Simplification: the parser sees the bytes as they are when `llhttp_execute` is called. (The library moves body bytes during parsing; that
bytes not yet parsed are never modified is theorem C41.)
-/

namespace CoreHttp

/-- A callback invocation by the parser (llhttp_settings_t members used in core_http_client.c:1009-1017, 2466-2469). A span is given as
(offset, length) relative to the start of the data of this `llhttp_execute`. The parser's public fields read by the callbacks
(`status_code`, `content_length`, `flags`) are arguments. `at` is the number of data bytes consumed when the end of the header section is
reported. -/
inductive PEv where
  | messageBegin
  | status (off len : Nat) (code : Nat)
  | statusComplete (code : Nat)
  | headerField (off len : Nat)
  | headerValue (off len : Nat)
  | headersComplete (at_ : Nat) (contentLength : UInt64) (connClose keepAlive : Bool)
  | body (off len : Nat)
  | messageComplete
deriving DecidableEq, Repr

/-- llhttp_errno_t: the codes core_http_client.c distinguishes (1051-1143, 2527-2546); `other` is every other code. -/
inductive Errno where
  | ok | strict | lfExpected | unexpectedContentLength | closedConnection | invalidConstant | invalidVersion | invalidHeaderToken
  | invalidContentLength | invalidChunkSize | invalidStatus | invalidEofState | paused | pausedUpgrade | user
  | other (n : Nat)
deriving DecidableEq, Repr

/-- What callbacks return to the parser (core_http_client_private.h:161-188). -/
inductive CbRet where
  /-- LLHTTP_CONTINUE_PARSING -/
  | continue_
  /-- LLHTTP_STOP_PARSING_NO_BODY = LLHTTP_STOP_PARSING_NO_HEADER = 1 -/
  | noBody
  /-- LLHTTP_PAUSE_PARSING = HPE_PAUSED -/
  | pause
  /-- LLHTTP_STOP_PARSING = HPE_USER -/
  | user
deriving DecidableEq, Repr

/-- One run of `llhttp_execute`: callbacks in order, each continuation depending on what the callback returned, ending with an error code,
`error_pos` (relative to the data) and the new parser state. -/
inductive PTree (S : Type) where
  | done (errno : Errno) (errorPos : Nat) (s : S)
  | call (e : PEv) (k : CbRet → PTree S)

/-- An incremental parser: `init` is the state after llhttp_init, `exec` is llhttp_execute, `resume` is llhttp_resume_after_upgrade. -/
structure Parser where
  St : Type
  init : St
  exec : St → Bytes → PTree St
  resume : St → St

/-- A parser event as recorded in the trace: the event, and for spans the location in the response buffer and the bytes the parser saw. -/
structure PObs where
  ev : PEv
  loc : Nat
  data : Bytes
deriving DecidableEq, Repr

/-- Ghost entries about the parser in a trace: a callback invocation, the contents of the response buffer when the callback has returned, or
the return of `llhttp_execute`. -/
inductive PLog where
  | obs (o : PObs)
  | mem (blk : Bytes)
  | ret (errno : Errno) (errorPos : Nat)
deriving DecidableEq, Repr

/-- The span of an event: offset and length relative to the data (empty, at the end of the header section, for `headersComplete`; `(0, 0)` when
it has none). -/
def PEv.span : PEv → Nat × Nat
  | .status off len _ => (off, len)
  | .headerField off len => (off, len)
  | .headerValue off len => (off, len)
  | .body off len => (off, len)
  | .headersComplete at_ _ _ _ => (at_, 0)
  | _ => (0, 0)

/-- The observation of an event in data located at `base` of the response buffer. -/
def PEv.observe (base : Nat) (data : Bytes) (e : PEv) : PObs :=
  ⟨e, base + e.span.1, (data.drop e.span.1).take e.span.2⟩

/-- Run one `llhttp_execute` with the given callback implementation (`H` is the state the callbacks work on), recording each event; `b` is the
block of the response buffer. -/
def runTree {S H σ : Type} (b base : Nat) (data : Bytes) (handle : PEv → H → M PLog σ (CbRet × H)) :
    PTree S → H → M PLog σ (Errno × Nat × S × H)
  | .done er ep s, h => do
    M.emit (.parserEvent (.ret er ep))
    pure (er, ep, s, h)
  | .call e k, h => do
    M.emit (.parserEvent (.obs (e.observe base data)))
    let r ← handle e h
    let w ← M.world
    M.emit (.parserEvent (.mem (w.mem b)))
    runTree b base data handle (k r.1) r.2

end CoreHttp

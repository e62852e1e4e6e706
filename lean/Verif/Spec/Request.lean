import Verif.Basic

/-! # Specification: request header blocks

Independent of the model: what a serialised request is, and how one is read back. -/

namespace CoreHttp.Spec

/-- CR LF. -/
def crlf : Bytes := [13, 10]

/-- `<field>: <value>` CRLF. -/
def headerLine (field value : Bytes) : Bytes := field ++ [58, 32] ++ value ++ crlf

/-- `<method> <path> HTTP/1.1` CRLF. -/
def requestLine (method path : Bytes) : Bytes := method ++ [32] ++ path ++ [32] ++ ascii "HTTP/1.1" ++ crlf

/-- The lines of a list of headers, in order. -/
def headerLines (hs : List (Bytes × Bytes)) : Bytes := (hs.map (fun h => headerLine h.1 h.2)).flatten

/-- A complete header block: start line, headers, blank line. -/
def requestBlock (startLine : Bytes) (hs : List (Bytes × Bytes)) : Bytes := startLine ++ headerLines hs ++ crlf

/-- A block without its final blank line, if it has one (i.e. if it ends in CRLF CRLF). -/
def stripBlankLine (block : Bytes) : Bytes :=
  if crlf ++ crlf <:+ block then block.take (block.length - 2) else block

/-- A field name with none of CR, LF, ':'. -/
def CleanField (f : Bytes) : Prop := ∀ c ∈ f, c ≠ 13 ∧ c ≠ 10 ∧ c ≠ 58

/-- A value with neither CR nor LF. -/
def CleanValue (v : Bytes) : Prop := ∀ c ∈ v, c ≠ 13 ∧ c ≠ 10

instance (f : Bytes) : Decidable (CleanField f) := inferInstanceAs (Decidable (∀ c ∈ f, _))
instance (f : Bytes) : Decidable (CleanValue f) := inferInstanceAs (Decidable (∀ c ∈ f, _))

/-- The path put on the wire: '/' for a NULL or empty path. -/
def effectivePath (p : Option Bytes) : Bytes :=
  match p with
  | none => ascii "/"
  | some p => if p.length = 0 then ascii "/" else p

/-- The headers an initialised request is documented to contain (core_http_client.h:585-606): User-Agent unless
HTTP_REQUEST_NO_USER_AGENT_FLAG (bit 1), Host, Connection: keep-alive with HTTP_REQUEST_KEEP_ALIVE_FLAG (bit 0). -/
def documentedHeaders (userAgent host : Bytes) (flags : Nat) : List (Bytes × Bytes) :=
  (if flags.testBit 1 then [] else [(ascii "User-Agent", userAgent)]) ++ [(ascii "Host", host)] ++
  (if flags.testBit 0 then [(ascii "Connection", ascii "keep-alive")] else [])

/-! ## The line grammar, read back -/

/-- Split off the first CRLF-terminated line: the line (without CRLF) and what follows. -/
def takeLine : Bytes → Option (Bytes × Bytes)
  | [] => none
  | c :: rest =>
    if c = 13 ∧ rest.head? = some 10 then some ([], rest.tail)
    else (takeLine rest).map (fun r => (c :: r.1, r.2))

/-- Split a header line at its first ':' which must be followed by a space. -/
def splitHeader : Bytes → Option (Bytes × Bytes)
  | [] => none
  | c :: rest =>
    if c = 58 then (if rest.head? = some 32 then some ([], rest.tail) else none)
    else (splitHeader rest).map (fun r => (c :: r.1, r.2))

/-- Read header lines up to the blank line (`n` bounds the number of lines read); returns the headers and what follows. -/
def readHeaders : Nat → Bytes → Option (List (Bytes × Bytes) × Bytes)
  | 0, _ => none
  | n + 1, bs => do
    let (line, rest) ← takeLine bs
    if line = [] then some ([], rest)
    else do
      let h ← splitHeader line
      let (hs, rest) ← readHeaders n rest
      some (h :: hs, rest)

/-- Read a whole request header block: first line, headers, and the bytes after the blank line. -/
def readRequest (bs : Bytes) : Option (Bytes × List (Bytes × Bytes) × Bytes) := do
  let (line, rest) ← takeLine bs
  let (hs, rest) ← readHeaders (rest.length + 1) rest
  some (line, hs, rest)

end CoreHttp.Spec

namespace CoreHttp.Spec

/-! ## Byte ranges -/

/-- A byte range of a representation (RFC 7233, section 2.1). -/
inductive ByteRange where
  /-- bytes first..last -/
  | fromTo (first last : Nat)
  /-- from byte `first` to the end -/
  | from (first : Nat)
  /-- the last `n` bytes -/
  | last (n : Nat)
deriving DecidableEq, Repr

end CoreHttp.Spec

import Verif.Spec.EndToEnd
import Verif.Spec.Wire
import Verif.Spec.Steps
import Verif.Spec.Session

/-!
# How a server finds the end of a request (RFC 9112, section 6)

An independent reader of HTTP/1.1 requests, as a server runs it on the bytes of a connection: header section, then as many bytes of body as
Content-Length says, or the chunks when Transfer-Encoding says so, and then the next request. It refuses what RFC 9112 calls ambiguous: several
Content-Length fields, or both kinds of delimiter.
-/

namespace CoreHttp.Spec
open CoreHttp
variable {σ : Type}

/-- The values of the headers of this name (given in lower case; compared without case). -/
def valuesOf (name : String) (hs : List (Bytes × Bytes)) : List Bytes := (hs.filter fun h => h.1.map lowerAscii = ascii name).map (·.2)

/-- Read hexadecimal digits, most significant first. -/
def readHexAux : Nat → Bytes → Option Nat
  | acc, [] => some acc
  | acc, c :: cs => match hexDigit c with
    | none => none
    | some d => readHexAux (16 * acc + d) cs

/-- Read a non-empty string of hexadecimal digits. -/
def readHex : Bytes → Option Nat
  | [] => none
  | c :: cs => readHexAux 0 (c :: cs)

/-- Read a chunked body (`k` bounds the number of chunks read): lines with a size in hexadecimal (what follows a semicolon is ignored), that many bytes
and a line end; up to a chunk of size 0 and an empty line (no trailer fields). Returns the data and what follows. -/
def readChunked : Nat → Bytes → Option (Bytes × Bytes)
  | 0, _ => none
  | k + 1, bs => do
    let (line, rest) ← takeLine bs
    let n ← readHex (line.takeWhile (· ≠ 59))
    let (blank, rest') ← takeLine (rest.drop n)
    if blank ≠ [] ∨ rest.length < n then none
    else if n = 0 then some ([], rest')
    else do
      let (data, rest'') ← readChunked k rest'
      some (rest.take n ++ data, rest'')

/-- A request as the server understands it. -/
structure Message where
  line : Bytes
  headers : List (Bytes × Bytes)
  body : Bytes
deriving DecidableEq, Repr

/-- Read one request; returns it and what follows. -/
def readMessage (bs : Bytes) : Option (Message × Bytes) := do
  let (line, hs, rest) ← readRequest bs
  match valuesOf "transfer-encoding" hs, valuesOf "content-length" hs with
  | [], [] => some (⟨line, hs, []⟩, rest)
  | [], [v] => do
    let n ← readDecimal v
    if rest.length < n then none else some (⟨line, hs, rest.take n⟩, rest.drop n)
  | [v], [] =>
    if v.map lowerAscii = ascii "chunked" then do
      let (data, rest') ← readChunked (rest.length + 1) rest
      some (⟨line, hs, data⟩, rest')
    else none
  | _, _ => none

/-- Read all requests of a connection (`k` bounds their number); `none` when the bytes are not a sequence of whole requests. -/
def readMessages : Nat → Bytes → Option (List Message)
  | _, [] => some []
  | 0, _ :: _ => none
  | k + 1, c :: cs => do
    let (m, rest) ← readMessage (c :: cs)
    let ms ← readMessages k rest
    some (m :: ms)

/-- A request as the application describes it: method, path, headers in order. -/
structure Described where
  method : Bytes
  path : Bytes
  headers : List (Bytes × Bytes)

/-- Its header block. -/
def Described.block (q : Described) : Bytes := requestBlock (requestLine q.method q.path) q.headers

/-- Its first line. -/
def Described.line (q : Described) : Bytes := q.method ++ ascii " " ++ q.path ++ ascii " HTTP/1.1"

/-- Nothing in it breaks the line structure; it has a header (the library always writes Host). -/
structure Described.Clean (q : Described) : Prop where
  method : CleanValue q.method
  path : CleanValue q.path
  headers : ∀ p ∈ q.headers, p.1 ≠ [] ∧ CleanField p.1 ∧ CleanValue p.2
  some_ : q.headers ≠ []

/-- The application leaves the framing of the body to the library. -/
structure Described.Unframed (q : Described) : Prop where
  noLength : valuesOf "content-length" q.headers = []
  noEncoding : valuesOf "transfer-encoding" q.headers = []

/-- The request was not refused for lack of room for its Content-Length line. -/
def fits (x : Exchange σ) : Bool := decide ((wireHeaders (headerBlock x.before.mem x.req) x.bodyLen x.flags.toNat).length ≤ x.req.bufferLen)

/-- Chunks on the wire, as in a response (Wire.lean), with the last chunk and no trailer fields. -/
def chunkedBytes (cs : List Chunk) (lastSize lastExt : Bytes) : Bytes := (Content.chunked cs lastSize lastExt []).bytes

end CoreHttp.Spec

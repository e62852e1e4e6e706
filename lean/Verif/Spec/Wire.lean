import Verif.Spec.Receive
import Verif.Spec.Decimal
import Verif.Spec.Request
import Verif.Spec.Tokens

/-!
# HTTP/1.1 responses and their bytes (RFC 9112)

An independent serialiser of responses, for the round trip property C58.
-/

namespace CoreHttp.Spec
open CoreHttp

/-- RFC 9110 tchar: visible characters that are not delimiters. -/
def isTokenChar (c : UInt8) : Bool :=
  decide (33 ≤ c ∧ c ≤ 126) && !(ascii "\"(),/:;<=>?@[\\]{}").contains c

/-- A header field: name, optional white space after the colon, value. -/
structure Field where
  name : Bytes
  ows : Bytes
  value : Bytes
deriving DecidableEq, Repr

/-- A chunk: text of the size, extension, data. -/
structure Chunk where
  size : Bytes
  ext : Bytes
  data : Bytes
deriving DecidableEq, Repr

/-- How the body is delimited. -/
inductive Content where
  /-- no body -/
  | none
  /-- by Content-Length -/
  | length (data : Bytes)
  /-- chunked; size text and extension of the last (empty) chunk; trailer fields -/
  | chunked (chunks : List Chunk) (lastSize lastExt : Bytes) (trailers : List Field)
deriving DecidableEq, Repr

/-- The protocol version of the sender. -/
inductive Version where
  | v10
  | v11
deriving DecidableEq, Repr

/-- The start of the status line. -/
def Version.text : Version → Bytes
  | .v10 => ascii "HTTP/1.0 "
  | .v11 => ascii "HTTP/1.1 "

/-- A response. -/
structure Response where
  version : Version
  code : Nat
  reason : Bytes
  fields : List Field
  content : Content
deriving DecidableEq, Repr

/-- The body data. -/
def Content.data : Content → Bytes
  | .none => []
  | .length d => d
  | .chunked cs _ _ _ => (cs.map Chunk.data).flatten

/-- The trailer fields. -/
def Content.trailers : Content → List Field
  | .chunked _ _ _ ts => ts
  | _ => []

/-- A header line. -/
def Field.line (f : Field) : Bytes := f.name ++ [58] ++ f.ows ++ f.value ++ crlf

/-- Header lines and the empty line. -/
def section_ (fs : List Field) : Bytes := (fs.map Field.line).flatten ++ crlf

/-- A chunk. -/
def Chunk.bytes (c : Chunk) : Bytes := c.size ++ c.ext ++ crlf ++ c.data ++ crlf

/-- The body on the wire. -/
def Content.bytes : Content → Bytes
  | .none => []
  | .length d => d
  | .chunked cs ls le ts => (cs.map Chunk.bytes).flatten ++ (ls ++ le ++ crlf ++ section_ ts)

/-- Three digits. -/
def digits3 (n : Nat) : Bytes := [UInt8.ofNat (48 + n / 100), UInt8.ofNat (48 + n / 10 % 10), UInt8.ofNat (48 + n % 10)]

/-- Status line and header section. -/
def Response.head (r : Response) : Bytes :=
  r.version.text ++ digits3 r.code ++ [32] ++ r.reason ++ crlf ++ section_ r.fields

/-- The status line, with its line end. -/
def Response.statusLine (r : Response) : Bytes := r.version.text ++ digits3 r.code ++ [32] ++ r.reason ++ crlf

/-- A header field, without line end. -/
def Field.text (f : Field) : Bytes := f.name ++ [58] ++ f.ows ++ f.value

/-- The header fields, one per line; no line end after the last one. -/
def headerText : List Field → Bytes
  | [] => []
  | [f] => f.text
  | f :: g :: fs => f.text ++ crlf ++ headerText (g :: fs)

/-- The response on the wire. -/
def Response.bytes (r : Response) : Bytes := r.head ++ r.content.bytes

/-- Well-formed header field: a token; blanks; a value without CR, LF, NUL and leading blank. -/
structure FieldOk (f : Field) : Prop where
  name : f.name ≠ [] ∧ ∀ c ∈ f.name, isTokenChar c = true
  ows : ∀ c ∈ f.ows, c = 32 ∨ c = 9
  value : ∀ c ∈ f.value, c ≠ 13 ∧ c ≠ 10 ∧ c ≠ 0
  noBlank : f.value.head? ≠ some 32 ∧ f.value.head? ≠ some 9

/-- The field has this name (compared without case). -/
def Field.is (f : Field) (name : String) : Prop := f.name.map lowerAscii = ascii name

instance (f : Field) (name : String) : Decidable (f.is name) := inferInstanceAs (Decidable (_ = _))

/-- Value of a hexadecimal digit. -/
def hexDigit (c : UInt8) : Option Nat :=
  if 48 ≤ c ∧ c ≤ 57 then some (c.toNat - 48)
  else if 97 ≤ c ∧ c ≤ 102 then some (c.toNat - 87)
  else if 65 ≤ c ∧ c ≤ 70 then some (c.toNat - 55)
  else .none

/-- `s` is hexadecimal text for `n`, most significant digit first. -/
inductive Hex : Bytes → Nat → Prop
  | one (c : UInt8) (d : Nat) : hexDigit c = some d → Hex [c] d
  | more (s : Bytes) (n : Nat) (c : UInt8) (d : Nat) : Hex s n → hexDigit c = some d → Hex (s ++ [c]) (16 * n + d)

/-- A chunk extension: nothing, or a semicolon and text without line ends. -/
def ExtOk (s : Bytes) : Prop := s = [] ∨ ∃ t, s = 59 :: t ∧ ∀ c ∈ t, c ≠ 13 ∧ c ≠ 10

/-- Well-formed chunk: not empty, and its size text says its size. -/
structure ChunkOk (c : Chunk) : Prop where
  nonempty : c.data ≠ []
  size : Hex c.size c.data.length
  ext : ExtOk c.ext

/-- The Content-Length fields. -/
def Response.lengths (r : Response) : List Field := r.fields.filter fun f => f.is "content-length"

/-- The status code rules out a body (RFC 9112, 6.3). -/
def Response.bodiless (r : Response) : Prop := r.code / 100 = 1 ∨ r.code = 204 ∨ r.code = 304

/-- Exactly one Content-Length field, for `n` bytes (white space around the number does not matter), and no Transfer-Encoding. -/
def Response.SaysLength (r : Response) (n : Nat) : Prop :=
  (∃ f, r.lengths = [f] ∧ readDecimal (trimBlanks f.value) = some n) ∧ n < 18446744073709551615 ∧ ∀ f ∈ r.fields, ¬ f.is "transfer-encoding"

/-- The Content-Length the header section states, 0 without one. -/
def Response.statedLength (r : Response) : Nat :=
  match r.lengths with
  | f :: _ => (readDecimal (trimBlanks f.value)).getD 0
  | [] => 0

/-- A Transfer-Encoding field whose last member is `chunked`. -/
def Response.saysChunked (r : Response) : Prop :=
  ∃ f ∈ r.fields, f.is "transfer-encoding" ∧ (listItems f.value).getLast? = some (ascii "chunked")

/-- Well-formed response to a request (`head`: a HEAD request): the body is delimited as the header section says. A response whose status rules out a
body has one all the same when its header section states one: that is how llhttp reads it (see C80). -/
structure Response.Ok (head : Bool) (r : Response) : Prop where
  code : 100 ≤ r.code ∧ r.code ≤ 999
  reason : ∀ c ∈ r.reason, c ≠ 13 ∧ c ≠ 10
  fields : ∀ f ∈ r.fields, FieldOk f
  content : match r.content with
    | .none => (head = true ∨ (r.bodiless ∧ r.statedLength = 0 ∧ ¬ r.saysChunked)) ∧ (r.lengths = [] ∨ ∃ n, r.SaysLength n)
    | .length d => head = false ∧ r.SaysLength d.length
    | .chunked cs ls le ts => head = false ∧ r.lengths = [] ∧ r.saysChunked ∧
        (∀ c ∈ cs, ChunkOk c) ∧ Hex ls 0 ∧ ExtOk le ∧ ∀ f ∈ ts, FieldOk f

/-- The status line and header section of `r` (its `content` does not matter) are well formed and, in the answer to a request that is not HEAD, announce
a body that ends with the connection (RFC 9112, 6.3, item 8). -/
structure Response.UntilClose (r : Response) : Prop where
  code : 100 ≤ r.code ∧ r.code ≤ 999
  reason : ∀ c ∈ r.reason, c ≠ 13 ∧ c ≠ 10
  fields : ∀ f ∈ r.fields, FieldOk f
  body : ¬ r.bodiless
  noLength : r.lengths = []
  notChunked : ∀ f ∈ r.fields, ¬ (f.is "transfer-encoding" ∧ (listItems f.value).getLast? = some (ascii "chunked"))

/-- A "Connection" field with this value among its members. -/
def Response.connection (r : Response) (value : String) : Prop :=
  ∃ f ∈ r.fields, f.is "connection" ∧ ascii value ∈ listItems f.value

/-- The sender will close the connection after this response (RFC 9112, 9.3). -/
def Response.closes (r : Response) : Prop :=
  r.connection "close" ∨ (r.version = .v10 ∧ ¬ r.connection "keep-alive")

/-- In this history the network delivers `wire`, and nothing else: what each receive call returns is the next part of `wire` (of any size, possibly
empty); no receive call fails. -/
def Delivers (wire : Bytes) (evs : List (Ev PLog)) : Prop :=
  ∀ pre off len ret data post, evs = pre ++ .recv off len ret data :: post → 0 ≤ ret ∧ received pre ++ data <+: wire

end CoreHttp.Spec

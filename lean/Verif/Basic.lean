/-!
# Basic vocabulary of the model

Bytes, memory blocks, outcomes (including undefined behaviour), status codes, machine arithmetic.
-/

namespace CoreHttp

/-- A byte string. `char`/`uint8_t` data of the C code. -/
abbrev Bytes := List UInt8

/-- The bytes of an ASCII string literal (only used for the library's own literals). -/
def ascii (s : String) : Bytes := s.toList.map (fun c => UInt8.ofNat c.toNat)

/-- Kinds of undefined behaviour / abnormal stop the C code could run into. -/
inductive Fault where
  /-- read or write outside a memory block -/
  | oob
  /-- signed integer overflow -/
  | intOverflow
  /-- a failed `assert` at this line of core_http_client.c -/
  | assertFail (line : Nat)
  /-- call through, or dereference of, a NULL pointer -/
  | nullCall
  /-- `memcpy` with overlapping source and destination -/
  | overlap
deriving DecidableEq, Repr

/-- Outcome of running a piece of C code: a value, a fault, or "still running"
(the fuel given to a loop of the model is used up). -/
inductive Run (α : Type) where
  | ok (a : α)
  | fault (f : Fault)
  | more
deriving Repr

namespace Run

instance {α} [DecidableEq α] : DecidableEq (Run α) := fun x y => by
  cases x <;> cases y <;>
    first
      | (rename_i a b; exact (if h : a = b then isTrue (by rw [h]) else isFalse (by simp [h])))
      | exact isTrue rfl
      | exact isFalse (by simp)

/-- Sequencing. -/
def bind {α β} : Run α → (α → Run β) → Run β
  | ok a, k => k a
  | fault f, _ => fault f
  | more, _ => more

instance : Monad Run where
  pure := ok
  bind := bind

@[simp] theorem pure_eq {α} (a : α) : (pure a : Run α) = ok a := rfl
@[simp] theorem ok_bind {α β} (a : α) (k : α → Run β) : (ok a >>= k) = k a := rfl
@[simp] theorem fault_bind {α β} (f : Fault) (k : α → Run β) : (fault f >>= k) = fault f := rfl
@[simp] theorem more_bind {α β} (k : α → Run β) : ((more : Run α) >>= k) = more := rfl
@[simp] theorem ok_map {α β} (a : α) (g : α → β) : (g <$> ok a) = ok (g a) := rfl

theorem bind_assoc' {α β γ} (x : Run α) (f : α → Run β) (g : β → Run γ) :
    ((x >>= f) >>= g) = (x >>= fun a => f a >>= g) := by
  cases x <;> rfl

theorem bind_eq_ok {α β} {x : Run α} {k : α → Run β} {b : β} :
    (x >>= k) = ok b ↔ ∃ a, x = ok a ∧ k a = ok b := by
  cases x <;> simp

theorem bind_eq_fault {α β} {x : Run α} {k : α → Run β} {f : Fault} :
    (x >>= k) = fault f ↔ x = fault f ∨ ∃ a, x = ok a ∧ k a = fault f := by
  cases x <;> simp

theorem bind_eq_more {α β} {x : Run α} {k : α → Run β} :
    (x >>= k) = more ↔ x = more ∨ ∃ a, x = ok a ∧ k a = more := by
  cases x <;> simp

/-- The outcome is not undefined behaviour. -/
def Safe {α} (x : Run α) : Prop := ∀ f, x ≠ fault f

end Run

/-- `assert( b )` at line `line` of core_http_client.c. -/
def cAssert (line : Nat) (b : Bool) : Run Unit :=
  if b then .ok () else .fault (.assertFail line)

@[simp] theorem cAssert_true (l : Nat) : cAssert l true = .ok () := rfl

/-- HTTPStatus_t, source/include/core_http_client.h:195-351, in order. -/
inductive Status where
  | success
  | invalidParameter
  | networkError
  | partialResponse
  | noResponse
  | insufficientMemory
  | extraneousResponseData
  | invalidChunkHeader
  | invalidProtocolVersion
  | invalidStatusCode
  | invalidCharacter
  | invalidContentLength
  | parserPaused
  | parserInternalError
  | headerNotFound
  | invalidResponse
deriving DecidableEq, Repr

/-- Build-time parameters: width of `size_t` and the configuration macros of
source/include/core_http_config_defaults.h:57,81,104 (HTTP_USER_AGENT_VALUE,
HTTP_RECV_RETRY_TIMEOUT_MS, HTTP_SEND_RETRY_TIMEOUT_MS; the timeouts are compared with `uint32_t` values). -/
structure Cfg where
  sizeBits : Nat
  userAgent : Bytes
  sendTimeoutMs : UInt32
  recvTimeoutMs : UInt32

/-- `size_t` addition (wraps modulo 2^sizeBits). -/
def szAdd (c : Cfg) (a b : Nat) : Nat := (a + b) % 2 ^ c.sizeBits

/-- `size_t` subtraction (wraps modulo 2^sizeBits). -/
def szSub (c : Cfg) (a b : Nat) : Nat := (a + (2 ^ c.sizeBits - b % 2 ^ c.sizeBits)) % 2 ^ c.sizeBits

/-- Conversion of an unsigned value to `int32_t` (two's complement wrap, as every supported compiler does). -/
def toInt32 (n : Nat) : Int :=
  if n % 4294967296 < 2147483648 then ((n % 4294967296 : Nat) : Int) else ((n % 4294967296 : Nat) : Int) - 4294967296

/-- Overwrite the bytes of `blk` at `off` by `bs` (no bounds check; used only behind one). -/
def splice (blk : Bytes) (off : Nat) (bs : Bytes) : Bytes :=
  blk.take off ++ bs ++ blk.drop (off + bs.length)

/-- `memcpy( &blk[ off ], bs, len )`: undefined behaviour when it leaves the block. -/
def memWrite (blk : Bytes) (off : Nat) (bs : Bytes) : Run Bytes :=
  if off + bs.length ≤ blk.length then .ok (splice blk off bs) else .fault .oob

/-- Reading `len` bytes at `off`: undefined behaviour when it leaves the block. -/
def memRead (blk : Bytes) (off len : Nat) : Run Bytes :=
  if off + len ≤ blk.length then .ok ((blk.drop off).take len) else .fault .oob

/-- The memory: contents of every block. -/
abbrev Mem := Nat → Bytes

/-- Replace the contents of block `b`. -/
def Mem.set (m : Mem) (b : Nat) (x : Bytes) : Mem := fun i => if i = b then x else m i

@[simp] theorem Mem.set_same (m : Mem) (b : Nat) (x : Bytes) : m.set b x b = x := by simp [Mem.set]
theorem Mem.set_other (m : Mem) {b i : Nat} (x : Bytes) (h : i ≠ b) : m.set b x i = m i := by simp [Mem.set, h]
@[simp] theorem Mem.set_set (m : Mem) (b : Nat) (x y : Bytes) : (m.set b x).set b y = m.set b y := by
  funext i; simp only [Mem.set]; split <;> rfl

theorem Mem.set_self (m : Mem) (b : Nat) : m.set b (m b) = m := by
  funext i; simp only [Mem.set]; split
  · simp [*]
  · rfl

end CoreHttp

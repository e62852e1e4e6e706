import Verif.Model.Request

/-!
# The environment of the library: transport, clock, memory, and the trace of what was observed

Everything the application supplies (transport, clock, header callback) is a function on an arbitrary
environment state `σ`, so that theorems quantify over every application, network and schedule.
-/

namespace CoreHttp

/-- One observable event. `parserCall` and `parserEvent` are ghost events: they record what the library handed to the
parser and what the parser reported, for use in specifications. -/
inductive Ev (π : Type) where
  /-- the transport send function was offered `data` and returned `ret` -/
  | send (data : Bytes) (ret : Int)
  /-- the transport receive function was given `len` bytes at offset `off` of the response buffer and returned `ret`;
  `data` is what the buffer then holds at [off, off + ret) -/
  | recv (off len : Nat) (ret : Int) (data : Bytes)
  /-- the clock was read -/
  | time (t : UInt32)
  /-- the user's header callback was invoked with these locations and the bytes there -/
  | header (fieldLoc : Nat) (field : Bytes) (valueLoc : Nat) (value : Bytes) (statusCode : Nat)
  /-- the parser was given these bytes, located at offset `off` of the response buffer -/
  | parserCall (off : Nat) (data : Bytes)
  /-- the parser invoked a callback -/
  | parserEvent (e : π)
deriving Repr

/-- The world: environment state, memory, and the trace so far (oldest first). -/
structure World (π σ : Type) where
  env : σ
  mem : Mem
  log : List (Ev π)

/-- A program of the model: given a world, an outcome and the world at that moment. The world is available also when a
loop ran out of fuel ("still running") or a fault occurred, so that claims can be made about every moment of a run. -/
def M (π σ α : Type) := World π σ → Run α × World π σ

namespace M
variable {π σ α β : Type}

/-- Sequencing. -/
def bind (x : M π σ α) (k : α → M π σ β) : M π σ β := fun w =>
  match x w with
  | (.ok a, w') => k a w'
  | (.fault f, w') => (.fault f, w')
  | (.more, w') => (.more, w')

instance : Monad (M π σ) where
  pure a := fun w => (.ok a, w)
  bind := bind

/-- Stop with a fault. -/
def fault (f : Fault) : M π σ α := fun w => (.fault f, w)
/-- The fuel of a loop is used up: the program is still running. -/
def more : M π σ α := fun w => (.more, w)
/-- A computation that does not use the world. -/
def ofRun (r : Run α) : M π σ α := fun w => (r, w)
/-- The current world. -/
def world : M π σ (World π σ) := fun w => (.ok w, w)
/-- Record an event. -/
def emit (e : Ev π) : M π σ Unit := fun w => (.ok (), { w with log := w.log ++ [e] })
/-- Replace the memory. -/
def setMem (m : Mem) : M π σ Unit := fun w => (.ok (), { w with mem := m })
/-- Replace the environment state. -/
def setEnv (s : σ) : M π σ Unit := fun w => (.ok (), { w with env := s })

@[simp] theorem pure_apply (a : α) (w : World π σ) : (pure a : M π σ α) w = (.ok a, w) := rfl
@[simp] theorem bind_apply (x : M π σ α) (k : α → M π σ β) (w : World π σ) :
    (x >>= k) w = match x w with
      | (.ok a, w') => k a w'
      | (.fault f, w') => (.fault f, w')
      | (.more, w') => (.more, w') := rfl
@[simp] theorem fault_apply (f : Fault) (w : World π σ) : (fault f : M π σ α) w = (.fault f, w) := rfl
@[simp] theorem more_apply (w : World π σ) : (more : M π σ α) w = (.more, w) := rfl
@[simp] theorem ofRun_apply (r : Run α) (w : World π σ) : (ofRun r : M π σ α) w = (r, w) := rfl
@[simp] theorem world_apply (w : World π σ) : (world : M π σ _) w = (.ok w, w) := rfl
@[simp] theorem emit_apply (e : Ev π) (w : World π σ) : (emit e : M π σ _) w = (.ok (), { w with log := w.log ++ [e] }) := rfl
@[simp] theorem setMem_apply (m : Mem) (w : World π σ) : (setMem m : M π σ _) w = (.ok (), { w with mem := m }) := rfl
@[simp] theorem setEnv_apply (s : σ) (w : World π σ) : (setEnv s : M π σ _) w = (.ok (), { w with env := s }) := rfl

end M

/-- `assert( b )` at a line of core_http_client.c, as a program. -/
def mAssert {π σ : Type} (line : Nat) (b : Bool) : M π σ Unit := M.ofRun (cAssert line b)

@[simp] theorem mAssert_true {π σ : Type} (l : Nat) (w : World π σ) : mAssert l true w = (.ok (), w) := rfl

/-- TransportInterface_t, source/interface/transport_interface.h:302-308; a member is `none` when NULL.
`send s data` returns the result and the new environment state. `recv s len` returns the result, the bytes it wrote to the start of
the memory it was given (possibly fewer or more than the result says) and the new state.
Simplification: `pNetworkContext` is part of `σ`; the functions do not modify the library's memory otherwise. -/
structure Transport (σ : Type) where
  send : Option (σ → Bytes → Int × σ)
  recv : Option (σ → Nat → Int × Bytes × σ)

/-- HTTPClient_GetCurrentTimeFunc_t, core_http_client.h:463: NULL, the library's own getZeroTimestampMs
(core_http_client.c:523-526: always 0), or a user function. -/
inductive TimeFn (σ : Type) where
  | null
  | zero
  | user (f : σ → UInt32 × σ)

namespace TimeFn
/-- `getTimestampMs == getZeroTimestampMs`. -/
def isZero {σ : Type} : TimeFn σ → Bool
  | zero => true
  | _ => false
end TimeFn

/-- `getTimestampMs()`. -/
def readClock {π σ : Type} : TimeFn σ → M π σ UInt32
  | .null => M.fault .nullCall
  | .zero => do
    M.emit (.time 0)
    pure 0
  | .user f => do
    let w ← M.world
    let r := f w.env
    M.setEnv r.2
    M.emit (.time r.1)
    pure r.1

end CoreHttp

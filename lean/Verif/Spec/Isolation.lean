import Verif.Model.ReadHeader

/-!
# Specification vocabulary: several clients in one program

Each client has a transport, a request object and a response object of its own; its environment (connection, clock, whatever its callbacks
change) has a state of type `σ`. The program has one memory, and as environment the environments of all clients.
-/

namespace CoreHttp.Spec
open CoreHttp
variable {σ : Type}

/-- Access to a part of type `σ` of a larger state. `put g s` makes the part `s`; what becomes of the rest is free: it may change in any way
that `g` and `s` determine (`g` may hold a schedule, by which other threads run at that moment). -/
structure Part (Γ σ : Type) where
  get : Γ → σ
  put : Γ → σ → Γ
  get_put : ∀ g s, get (put g s) = s

/-- Nothing else happens when the part is changed: the rest stays as it is. -/
structure Part.Quiet {Γ σ : Type} (p : Part Γ σ) : Prop where
  put_put : ∀ g s s', p.put (p.put g s) s' = p.put g s'
  put_get : ∀ g, p.put g (p.get g) = g

variable {Γ : Type}

/-- A transport whose functions use and change only a part of the environment. -/
def Part.transport (p : Part Γ σ) (T : Transport σ) : Transport Γ :=
  ⟨T.send.map fun send g d => ((send (p.get g) d).1, p.put g (send (p.get g) d).2),
   T.recv.map fun recv g n => ((recv (p.get g) n).1, (recv (p.get g) n).2.1, p.put g (recv (p.get g) n).2.2)⟩

/-- A clock that uses and changes only a part of the environment (by itself). -/
def Part.clock (p : Part Γ σ) : TimeFn σ → TimeFn Γ
  | .null => .null
  | .zero => .zero
  | .user f => .user fun g => ((f (p.get g)).1, p.put g (f (p.get g)).2)

/-- A header callback that uses and changes only a part of the environment. -/
def Part.callback (p : Part Γ σ) : HeaderCb σ → HeaderCb Γ
  | .null => .null
  | .user c => .user fun g a x b v code => p.put g (c (p.get g) a x b v code)

/-- A response object whose clock and callback use and change only a part of the environment; all else is the same. -/
def Part.response (p : Part Γ σ) (r : Resp σ) : Resp Γ where
  pBuffer := r.pBuffer
  bufferLen := r.bufferLen
  pHeaderParsingCallback := r.pHeaderParsingCallback.map p.callback
  getTime := p.clock r.getTime
  pHeaders := r.pHeaders
  headersLen := r.headersLen
  pBody := r.pBody
  bodyLen := r.bodyLen
  statusCode := r.statusCode
  contentLength := r.contentLength
  headerCount := r.headerCount
  areHeadersComplete := r.areHeadersComplete
  respOptionFlags := r.respOptionFlags
  respFlags := r.respFlags

/-- The objects of a client; `none` for a NULL pointer. -/
structure Objs (σ : Type) where
  req : Option ReqHeaders
  resp : Option (Resp σ)

/-- The objects of a client, in the program with all clients. -/
def Part.objs (p : Part Γ σ) (o : Objs σ) : Objs Γ := ⟨o.req, o.resp.map p.response⟩

/-- A call of the API by a client, with its objects and its transport and these parameters. Blocks stand for pointers to their beginning. -/
inductive Call where
  | init (info : Option ReqInfo)
  | addHeader (field value : Option Bytes)
  | addRange (start end_ : Int)
  | sendHeaders (bodyLen : Nat) (flags : UInt32)
  | sendData (data : Option Nat) (len : Nat)
  | receive
  | send (body : Option Nat) (bodyLen : Nat) (flags : UInt32)
  | readHeader (field : Option Bytes) (valueLoc : Option (Option Nat)) (valueLen : Option Nat)

/-- What a call returns: the status, and for HTTPClient_ReadHeader the contents of the output variables. -/
structure Reply where
  status : Status
  valueLoc : Option (Option Nat)
  valueLen : Option Nat

/-- The clock of the response object, for the calls that take a clock of their own. -/
def clockOf (o : Objs σ) : TimeFn σ :=
  match o.resp with
  | some r => r.getTime
  | none => .zero

/-- A request-building call, as a program. -/
def building (f : Mem → Run (Status × Option ReqHeaders × Mem)) (o : Objs σ) : M PLog σ (Reply × Objs σ) := do
  let w ← M.world
  let r ← M.ofRun (f w.mem)
  M.setMem r.2.2
  pure (⟨r.1, none, none⟩, ⟨r.2.1, o.resp⟩)

/-- A call of the API. -/
def runCall (P : Parser) (cfg : Cfg) (fuel : Nat) (T : Option (Transport σ)) (o : Objs σ) : Call → M PLog σ (Reply × Objs σ)
  | .init info => building (fun m => HTTPClient_InitializeRequestHeaders cfg m o.req info) o
  | .addHeader field value => building (fun m => HTTPClient_AddHeader cfg m o.req field value) o
  | .addRange a e => building (fun m => HTTPClient_AddRangeHeader cfg m o.req a e) o
  | .sendHeaders n flags => do
    let r ← HTTPClient_SendHttpHeaders cfg fuel T (clockOf o) o.req n flags
    pure (⟨r.1, none, none⟩, ⟨r.2, o.resp⟩)
  | .sendData data len => do
    let st ← HTTPClient_SendHttpData cfg fuel T (clockOf o) data len
    pure (⟨st, none, none⟩, o)
  | .receive => do
    let r ← HTTPClient_ReceiveAndParseHttpResponse P cfg fuel T o.resp o.req
    pure (⟨r.1, none, none⟩, ⟨o.req, some r.2⟩)
  | .send body n flags => do
    let r ← HTTPClient_Send P cfg fuel T o.req body n o.resp flags
    pure (⟨r.1, none, none⟩, ⟨r.2.1, r.2.2⟩)
  | .readHeader field valueLoc valueLen => do
    let r ← HTTPClient_ReadHeader P o.resp field valueLoc valueLen
    pure (⟨r.1, r.2.1, r.2.2⟩, o)

/-- What is observed of a call: its outcome (the reply, a fault, or that it has not returned) and what happened during it. -/
structure Outcome where
  reply : Run Reply
  events : List (Ev PLog)

/-- A client on its own: its objects (`none` once a call has not returned), environment and memory. -/
structure Alone (σ : Type) where
  objs : Option (Objs σ)
  env : σ
  mem : Mem

/-- One call of a client on its own. -/
def Alone.step (P : Parser) (cfg : Cfg) (fuel : Nat) (T : Option (Transport σ)) (a : Alone σ) (c : Call) : List Outcome × Alone σ :=
  match a.objs with
  | none => ([], a)
  | some o =>
    match runCall P cfg fuel T o c ⟨a.env, a.mem, []⟩ with
    | (.ok (r, o'), w) => ([⟨.ok r, w.log⟩], ⟨some o', w.env, w.mem⟩)
    | (.fault f, w) => ([⟨.fault f, w.log⟩], ⟨none, w.env, w.mem⟩)
    | (.more, w) => ([⟨.more, w.log⟩], ⟨none, w.env, w.mem⟩)

/-- Any number of calls of a client on its own. -/
def Alone.run (P : Parser) (cfg : Cfg) (fuel : Nat) (T : Option (Transport σ)) : Alone σ → List Call → List Outcome × Alone σ
  | a, [] => ([], a)
  | a, c :: cs => ((a.step P cfg fuel T c).1 ++ (Alone.run P cfg fuel T (a.step P cfg fuel T c).2 cs).1,
      (Alone.run P cfg fuel T (a.step P cfg fuel T c).2 cs).2)

/-- One call of a client while other threads run: before the call they change the environment by `others` and the memory by `writes`. What they
do to the environment during the call is in the functions that the call uses (see `Part`). -/
structure Turn (Γ : Type) where
  call : Call
  others : Γ → Γ
  writes : Mem → Mem

/-- Any number of calls of a client while other threads run. -/
def Alone.runAmong (P : Parser) (cfg : Cfg) (fuel : Nat) (T : Option (Transport Γ)) : Alone Γ → List (Turn Γ) → List Outcome × Alone Γ
  | a, [] => ([], a)
  | a, t :: ts =>
    let x := Alone.step P cfg fuel T ⟨a.objs, t.others a.env, t.writes a.mem⟩ t.call
    (x.1 ++ (Alone.runAmong P cfg fuel T x.2 ts).1, (Alone.runAmong P cfg fuel T x.2 ts).2)

/-- All clients, numbered, with the environment of each. -/
abbrev Envs (σ : Type) := Nat → σ

/-- The environment of client `i` as a part of the environments of all. -/
def client (i : Nat) : Part (Envs σ) σ where
  get := fun g => g i
  put := fun g s j => if j = i then s else g j
  get_put := fun g s => by simp

theorem client_quiet (i : Nat) : (client i : Part (Envs σ) σ).Quiet where
  put_put := fun g s s' => by funext j; by_cases h : j = i <;> simp [client, h]
  put_get := fun g => by
    funext j; by_cases h : j = i <;> simp [client, h]

/-- A program with many clients. -/
structure Program (σ : Type) where
  objs : Nat → Option (Objs (Envs σ))
  env : Envs σ
  mem : Mem

/-- Client `i` makes a call. -/
def Program.step (P : Parser) (cfg : Cfg) (fuel : Nat) (T : Nat → Option (Transport σ)) (g : Program σ) (i : Nat) (c : Call) :
    List Outcome × Program σ :=
  match g.objs i with
  | none => ([], g)
  | some o =>
    match runCall P cfg fuel ((T i).map (client i).transport) o c ⟨g.env, g.mem, []⟩ with
    | (.ok (r, o'), w) => ([⟨.ok r, w.log⟩], ⟨fun j => if j = i then some o' else g.objs j, w.env, w.mem⟩)
    | (.fault f, w) => ([⟨.fault f, w.log⟩], ⟨fun j => if j = i then none else g.objs j, w.env, w.mem⟩)
    | (.more, w) => ([⟨.more, w.log⟩], ⟨fun j => if j = i then none else g.objs j, w.env, w.mem⟩)

/-- Calls of all clients, in the given order; each outcome with the client it belongs to. -/
def Program.run (P : Parser) (cfg : Cfg) (fuel : Nat) (T : Nat → Option (Transport σ)) : Program σ → List (Nat × Call) →
    List (Nat × Outcome) × Program σ
  | g, [] => ([], g)
  | g, (i, c) :: xs => (((g.step P cfg fuel T i c).1.map fun o => (i, o)) ++ (Program.run P cfg fuel T (g.step P cfg fuel T i c).2 xs).1,
      (Program.run P cfg fuel T (g.step P cfg fuel T i c).2 xs).2)

/-- The entries of client `i` in a list. -/
def ofClient {α : Type} (i : Nat) (l : List (Nat × α)) : List α := (l.filter fun x => x.1 = i).map fun x => x.2

/-- Every buffer of the objects is a block in `own`. -/
structure ObjsIn (own : Nat → Prop) (o : Objs σ) : Prop where
  req : ∀ h b, o.req = some h → h.pBuffer = some b → own b
  resp : ∀ r b, o.resp = some r → r.pBuffer = some b → own b

/-- Every buffer given to the call is a block in `use`. -/
def CallIn (use : Nat → Prop) : Call → Prop
  | .sendData (some b) _ => use b
  | .send (some b) _ _ => use b
  | _ => True

end CoreHttp.Spec

import Verif.Spec.Arrive

/-! # A request that is repeated until it is confirmed (C118) -/

namespace CoreHttp.Spec.Once
open CoreHttp Spec Spec.Upload
variable {σ : Type}

/-- One attempt: the transport of the connection made for it, the state of the environment when it has been made, and (for the statement only, the loop does not look
at it) how the server answers. -/
structure Shot (σ : Type) where
  send : σ → Bytes → Int × σ
  recv : σ → Nat → Int × Bytes × σ
  start : σ
  serves : Bytes → Bytes → Prop

/-- The transport interface passed to HTTPClient_Send. -/
def Shot.transport (a : Shot σ) : Transport σ := ⟨some a.send, some a.recv⟩

/-- The first line of the requests. -/
def postLine (path : Bytes) : Bytes := ascii "POST " ++ path ++ ascii " HTTP/1.1"

/-- What the server does with a message, `done` being the orders it has carried out, each with its key: when the message is a POST to `path` with exactly one header
Idempotency-Key, and no order with this key has been carried out, then it carries out the order in the body. -/
def performStep (path : Bytes) (done : List (Bytes × Bytes)) (m : Message) : List (Bytes × Bytes) :=
  match m.headers.filter (·.1 == ascii "Idempotency-Key") with
  | [(_, v)] => if m.line = postLine path ∧ ¬ v ∈ done.map (·.1) then done ++ [(v, m.body)] else done
  | _ => done

/-- The orders carried out after these messages. -/
def performed (path : Bytes) (ms : List Message) : List (Bytes × Bytes) := ms.foldl (performStep path) []

/-- The status code says: done. -/
def confirms (code : Nat) : Prop := 200 ≤ code ∧ code < 300

instance (code : Nat) : Decidable (confirms code) := inferInstanceAs (Decidable (_ ∧ _))

/-- What the server says is true, when `hist` are the messages it processes: whenever it answers a POST to `path`, then with a well-formed response of any size;
and if its status is 2xx, then it processes that message (before or after). Any other response may say anything. -/
def Shot.Truthful (a : Shot σ) (path : Bytes) (hist : List Message) : Prop :=
  ∀ q x m, a.serves q x → readMessage q = some (m, []) → m.line = postLine path → ∃ r : Response, r.Ok false ∧ x = r.bytes ∧ (confirms r.code → m ∈ hist)

/-- The attempt is made on a connection on which nothing fails, to a server that answers with a well-formed response that the buffer has room for, and with status 2xx if it processes the
message. -/
def Shot.Prompt (a : Shot σ) (path : Bytes) (hist : List Message) (got rest : σ → Bytes) (resp : Resp σ) : Prop :=
  got a.start = [] ∧ ∃ serve, Server serve got rest a.send a.recv resp ∧
    ∀ q m, readMessage q = some (m, []) → m.line = postLine path →
      ∃ r : Response, r.Ok false ∧ serve q = r.bytes ∧ r.bytes.length ≤ resp.bufferLen ∧ (m ∈ hist → confirms r.code)

/-- The calls that describe a request. -/
def postOps (path host : Bytes) (reqFlags : UInt32) (key : Bytes) : List BuildOp :=
  [.init (some ⟨some (ascii "POST"), some path, some host, reqFlags⟩), .addHeader (some (ascii "Idempotency-Key")) (some key)]

/-- The application's loop. It makes the same request, with the same key, over one new connection after another, until HTTPClient_Send returns HTTPSuccess and the status code is 2xx
(`true`), or the attempts are used up or the request cannot be built (`false`). Returns also what happened in each call. -/
def repeatUntil (P : Parser) (cfg : Cfg) (fuel : Nat) (path host : Bytes) (reqFlags sendFlags : UInt32) (key order : Bytes) (bb : Nat) :
    List (Shot σ) → List (List (Ev PLog)) → ReqHeaders → Resp σ → Mem → Run Bool × List (List (Ev PLog))
  | [], logs, _, _, _ => (.ok false, logs)
  | a :: as, logs, h, resp, m =>
    match runBuildOps cfg (put m bb order) h (postOps path host reqFlags key) with
    | .ok (sts, rh, m1) =>
      if sts.all (· == .success) then
        match HTTPClient_Send P cfg fuel (some a.transport) (some rh) (some bb) order.length (some resp) sendFlags ⟨a.start, m1, []⟩ with
        | (.ok (st, some rh', some resp'), w') =>
          if st = .success ∧ confirms resp'.statusCode then (.ok true, logs ++ [w'.log])
          else repeatUntil P cfg fuel path host reqFlags sendFlags key order bb as (logs ++ [w'.log]) rh' resp' w'.mem
        | (.ok _, w') => (.ok false, logs ++ [w'.log])
        | (.fault f, w') => (.fault f, logs ++ [w'.log])
        | (.more, w') => (.more, logs ++ [w'.log])
      else (.ok false, logs)
    | .fault f => (.fault f, logs)
    | .more => (.more, logs)

/-- What makes HTTPClient_Send return (C61) in every attempt, as TriesReturn. -/
def ShotsReturn (cfg : Cfg) (fuel size : Nat) (h : ReqHeaders) (resp : Resp σ) (as : List (Shot σ)) : Prop :=
  (∃ (f : σ → UInt32 × σ) (now : σ → Nat), resp.getTime = .user f ∧ ClockOk now f ∧
    (∀ a ∈ as, SendTakesTime now f a.send (4294967296 - cfg.sendTimeoutMs.toNat) ∧ RecvTakesTime now f a.recv (4294967296 - cfg.recvTimeoutMs.toNat)) ∧
    size * (cfg.sendTimeoutMs.toNat + 1) + cfg.sendTimeoutMs.toNat + 1 ≤ fuel ∧
    h.bufferLen * (cfg.sendTimeoutMs.toNat + 1) + cfg.sendTimeoutMs.toNat + 1 ≤ fuel ∧
    resp.bufferLen * (cfg.recvTimeoutMs.toNat + 2) + cfg.recvTimeoutMs.toNat + 2 ≤ fuel) ∨
  ((resp.getTime = .null ∨ resp.getTime = .zero) ∧ h.bufferLen ≤ fuel ∧ resp.bufferLen + 1 ≤ fuel ∧ size ≤ fuel)

end CoreHttp.Spec.Once

import Verif.Lemmas.RecvTerm
import Verif.Spec.Shared

/-!
# Invariants of environment and trace

`I s l` relates the state of the environment to the trace. If every interaction with the environment (send, receive, clock, header callback) keeps it,
then so does every part of the library.
-/

namespace CoreHttp
open Spec
variable {σ : Type}

/-- The program keeps the invariant, and its result satisfies `Q`. -/
def Keeps {α : Type} (I : σ → List (Ev PLog) → Prop) (x : M PLog σ α) (Q : α → Prop) : Prop :=
  ∀ w, I w.env w.log → I (x w).2.env (x w).2.log ∧ ∀ a, (x w).1 = .ok a → Q a

namespace Keeps
variable {α β : Type} {I : σ → List (Ev PLog) → Prop}

theorem pure {a : α} {Q : α → Prop} (h : Q a) : Keeps I (Pure.pure a : M PLog σ α) Q :=
  fun w hi => ⟨hi, fun a' h' => by simp at h'; rw [← h']; exact h⟩
theorem fault {f : Fault} {Q : α → Prop} : Keeps I (M.fault f : M PLog σ α) Q := fun w hi => ⟨hi, fun a' h' => by simp at h'⟩
theorem more {Q : α → Prop} : Keeps I (M.more : M PLog σ α) Q := fun w hi => ⟨hi, fun a' h' => by simp at h'⟩
theorem bind {x : M PLog σ α} {k : α → M PLog σ β} {Q : α → Prop} {R : β → Prop} (h1 : Keeps I x Q) (h2 : ∀ a, Q a → Keeps I (k a) R) :
    Keeps I (x >>= k) R := by
  intro w hi
  obtain ⟨h3, h4⟩ := h1 w hi
  simp only [M.bind_apply]
  rcases hx : x w with ⟨a | f | _, w'⟩
  · rw [hx] at h3 h4; exact h2 a (h4 a rfl) w' h3
  · rw [hx] at h3; exact ⟨h3, fun a h => by simp at h⟩
  · rw [hx] at h3; exact ⟨h3, fun a h => by simp at h⟩
theorem mono {x : M PLog σ α} {Q R : α → Prop} (h1 : Keeps I x Q) (h2 : ∀ a, Q a → R a) : Keeps I x R :=
  fun w hi => ⟨(h1 w hi).1, fun a h => h2 a ((h1 w hi).2 a h)⟩
theorem ofRun (r : Run α) : Keeps I (M.ofRun r : M PLog σ α) fun _ => True := fun w hi => ⟨hi, fun _ _ => trivial⟩
theorem assert (l : Nat) (c : Bool) : Keeps I (mAssert l c : M PLog σ Unit) fun _ => True := ofRun _
theorem setMem (m : Mem) : Keeps I (M.setMem m : M PLog σ Unit) fun _ => True := fun w hi => ⟨hi, fun _ _ => trivial⟩
/-- Reading the world gives a world in which the invariant holds. -/
theorem world {k : World PLog σ → M PLog σ β} {R : β → Prop} (h : ∀ w, I w.env w.log → I (k w w).2.env (k w w).2.log ∧ ∀ a, (k w w).1 = .ok a → R a) :
    Keeps I (M.world >>= k) R := fun w hi => h w hi
theorem world' : Keeps I (M.world : M PLog σ _) fun _ => True := fun w hi => ⟨hi, fun _ _ => trivial⟩
end Keeps

/-- Everything the library asks the environment for keeps the invariant. -/
structure EnvInv (I : σ → List (Ev PLog) → Prop) (send : σ → Bytes → Int × σ) (recv : σ → Nat → Int × Bytes × σ) (clock : TimeFn σ)
    (cb : Option (HeaderCb σ)) : Prop where
  /-- the receive function has stored what it says it has -/
  stored : ∀ s len, (recv s len).1.toNat ≤ (recv s len).2.1.length
  send : ∀ s l d, d ≠ [] → I s l → I (send s d).2 (l ++ [.send d (send s d).1])
  recv : ∀ s l off len, I s l → I (recv s len).2.2 (l ++ [.recv off len (recv s len).1 ((recv s len).2.1.take (recv s len).1.toNat)])
  zero : clock = .zero → ∀ s l, I s l → I s (l ++ [.time 0])
  user : ∀ f, clock = .user f → ∀ s l, I s l → I (f s).2 (l ++ [.time (f s).1])
  header : ∀ c, cb = some (.user c) → ∀ s l a f b v code, I s l → I (c s a f b v code) (l ++ [.header a f b v code])
  call : ∀ s l off data, I s l → I s (l ++ [.parserCall off data])
  event : ∀ s l e, I s l → I s (l ++ [.parserEvent e])

variable {I : σ → List (Ev PLog) → Prop} {send : σ → Bytes → Int × σ} {recv : σ → Nat → Int × Bytes × σ} {clock : TimeFn σ}
  {cb : Option (HeaderCb σ)} {S : Type}

/-- The parts of the response object that matter here. -/
def Fixed (clock : TimeFn σ) (cb : Option (HeaderCb σ)) (h : RS S σ) : Prop := h.resp.getTime = clock ∧ h.resp.pHeaderParsingCallback = cb

theorem readClock_keeps (E : EnvInv I send recv clock cb) : Keeps I (readClock clock) fun _ => True := by
  cases hc : clock with
  | null => exact .fault
  | zero => exact fun w hi => ⟨E.zero hc _ _ hi, fun _ _ => trivial⟩
  | user f => exact fun w hi => ⟨E.user f hc _ _ hi, fun _ _ => trivial⟩

theorem processCompleteHeader_keeps (E : EnvInv I send recv clock cb) (cfg : Cfg) (b : Nat) {h : RS S σ} (hf : Fixed clock cb h) :
    Keeps I (processCompleteHeader cfg b h) (Fixed clock cb) := by
  unfold processCompleteHeader
  cases h.ctx.lastField with
  | none => exact .pure hf
  | some f =>
    cases h.ctx.lastValue with
    | none => exact .pure hf
    | some v =>
      refine .bind (.assert _ _) fun _ _ => ?_
      dsimp only
      cases hcb : h.resp.pHeaderParsingCallback with
      | none => exact .pure ⟨hf.1, hcb.symm.trans hf.2⟩
      | some c =>
        cases c with
        | null => exact .bind (.fault (Q := fun _ => True)) fun _ _ => .pure ⟨hf.1, hcb.symm.trans hf.2⟩
        | user c =>
        refine .world fun w hi => ?_
        simp only [M.bind_apply, M.ofRun_apply]
        cases memRead (w.mem b) f h.ctx.lastFieldLen with
        | fault f => exact ⟨hi, fun a h => by simp at h⟩
        | more => exact ⟨hi, fun a h => by simp at h⟩
        | ok field =>
          dsimp only
          cases memRead (w.mem b) v h.ctx.lastValueLen with
          | fault f => exact ⟨hi, fun a h => by simp at h⟩
          | more => exact ⟨hi, fun a h => by simp at h⟩
          | ok value =>
            dsimp only [M.setEnv_apply, M.emit_apply, M.pure_apply]
            refine ⟨E.header c (by rw [← hf.2]; exact hcb) _ _ _ _ _ _ _ hi, fun a ha => ?_⟩
            simp only [Run.ok.injEq] at ha
            rw [← ha]; exact ⟨hf.1, hcb.symm.trans hf.2⟩

theorem recvCallback_keeps (E : EnvInv I send recv clock cb) (cfg : Cfg) (b base : Nat) (e : PEv) {h : RS S σ} (hf : Fixed clock cb h) :
    Keeps I (recvCallback cfg b base e h) fun x => Fixed clock cb x.2 := by
  cases e with
  | messageBegin => exact .pure hf
  | messageComplete => exact .pure hf
  | status off len code => exact .bind (.assert _ _) fun _ _ => .pure hf
  | statusComplete code => exact .bind (.assert _ _) fun _ _ => .pure hf
  | headerField off len =>
    refine .bind (.assert _ _) fun _ _ => .bind (processCompleteHeader_keeps E _ _ hf) fun g hg => ?_
    cases g.ctx.lastField with
    | none => exact .pure hg
    | some _ => exact .bind (.assert _ _) fun _ _ => .pure hg
  | headerValue off len => exact .bind (.assert _ _) fun _ _ => .pure hf
  | headersComplete at_ cl cc ka =>
    simp only [recvCallback, onHeadersComplete]
    cases h.ctx.cur with
    | none => exact .fault
    | some cur =>
      refine .bind (.assert _ _) fun _ _ => .bind (.assert _ _) fun _ _ => .bind (Q := fun _ => True) ?_ fun _ _ =>
        .bind (processCompleteHeader_keeps E _ _ hf) fun g hg => .pure hg
      unfold headersLength
      cases h.resp.pHeaders with
      | none => exact .pure trivial
      | some p => exact .bind (.assert _ _) fun _ _ => .pure trivial
  | body off len =>
    simp only [recvCallback, onBody]
    refine .bind (.assert _ _) fun _ _ => .bind (.assert _ _) fun _ _ => ?_
    cases h.resp.pBody with
    | none =>
      dsimp only
      split
      · exact .bind .world' fun _ _ => .bind (.ofRun _) fun _ _ => .bind (.ofRun _) fun _ _ => .bind (.setMem _) fun _ _ => .pure hf
      · exact .pure hf
    | some q =>
      dsimp only
      split
      · exact .bind .world' fun _ _ => .bind (.ofRun _) fun _ _ => .bind (.ofRun _) fun _ _ => .bind (.setMem _) fun _ _ => .pure hf
      · exact .pure hf

theorem event_keeps (E : EnvInv I send recv clock cb) (e : PLog) : Keeps I (M.emit (.parserEvent e)) fun _ => True :=
  fun _ hi => ⟨E.event _ _ _ hi, fun _ _ => trivial⟩

theorem runTree_keeps (E : EnvInv I send recv clock cb) (cfg : Cfg) (b base : Nat) (data : Bytes) (t : PTree S) : ∀ {h : RS S σ},
    Fixed clock cb h → Keeps I (runTree b base data (recvCallback cfg b base) t h) fun x => Fixed clock cb x.2.2.2 := by
  induction t with
  | done er ep s => intro h hf; exact .bind (event_keeps E _) fun _ _ => .pure hf
  | call e k ih =>
    intro h hf
    refine .bind (event_keeps E _) fun _ _ => .bind (recvCallback_keeps E cfg b base e hf) fun r hr => .bind .world' fun _ _ =>
      .bind (event_keeps E _) fun _ _ => ?_
    exact ih r.1 hr

theorem parse_keeps (E : EnvInv I send recv clock cb) (P : Parser) (cfg : Cfg) (b : Nat) {h : RS P.St σ} (hf : Fixed clock cb h) (n : Nat) :
    Keeps I (parseHttpResponse P cfg b h n) fun x => Fixed clock cb x.2 := by
  have hb : Fixed clock cb (bindResponse h) := by unfold bindResponse; split <;> exact hf
  unfold parseHttpResponse
  dsimp only
  cases (bindResponse h).ctx.cur with
  | none => exact .fault
  | some start =>
    refine .bind .world' fun _ _ => .bind (.ofRun _) fun _ _ => .bind (Q := fun _ => True) (fun _ hi => ⟨E.call _ _ _ _ hi, fun _ _ => trivial⟩)
      fun _ _ => .bind (runTree_keeps E _ _ _ _ _ hb) fun x hx => ?_
    exact .pure hx

theorem slice_write {blk blk' data : Bytes} {off : Nat} (h : memWrite blk off data = .ok blk') : slice blk' off data.length = data := by
  unfold memWrite at h
  split at h
  · rename_i hl
    simp only [Run.ok.injEq] at h
    subst h
    unfold slice splice
    rw [List.append_assoc, List.drop_append_of_le_length (by rw [List.length_take]; omega),
      List.drop_eq_nil_of_le (by rw [List.length_take]; omega), List.nil_append, List.take_left']
    rfl
  · cases h

theorem recvLoop_keeps (E : EnvInv I send recv clock cb) (P : Parser) (cfg : Cfg) (T : UInt32) (b : Nat) :
    ∀ (fuel total : Nat) (last : UInt32) {h : RS P.St σ}, Fixed clock cb h →
      Keeps I (recvLoop P cfg recv T b fuel total last h) fun _ => True := by
  intro fuel
  induction fuel with
  | zero => intro total last h _; exact .more
  | succ n ih =>
    intro total last h hf
    unfold recvLoop
    refine .world fun w hi => ?_
    have hE := E.stored w.env (h.resp.bufferLen - total)
    have hI := E.recv w.env w.log total (h.resp.bufferLen - total) hi
    dsimp only
    generalize recv w.env (h.resp.bufferLen - total) = r at hE hI
    simp only [M.bind_apply, M.ofRun_apply]
    cases hw : memWrite (w.mem b) total r.2.1 with
    | fault f => exact ⟨hi, fun _ _ => trivial⟩
    | more => exact ⟨hi, fun _ _ => trivial⟩
    | ok blk =>
      have hsl := slice_write hw
      simp only [M.setEnv_apply, M.setMem_apply, M.emit_apply]
      have hsl' : slice blk total r.1.toNat = r.2.1.take r.1.toNat := by
        rw [← hsl]; unfold slice; rw [List.take_take, Nat.min_eq_left hE]
      rw [hsl']
      generalize hw1 : (⟨r.2.2, w.mem.set b blk, w.log ++ [.recv total (h.resp.bufferLen - total) r.1 (r.2.1.take r.1.toNat)]⟩ : World PLog σ) = w1
      have hI1 : I w1.env w1.log := by rw [← hw1]; exact hI
      revert hI1
      generalize w1 = w1
      revert w1
      show Keeps I _ _
      by_cases h1 : r.1 < 0
      · rw [if_pos h1]; exact .pure trivial
      rw [if_neg h1]
      have hc : Keeps I (readClock h.resp.getTime) fun _ => True := by rw [hf.1]; exact readClock_keeps E
      by_cases h2 : r.1 > 0
      · rw [if_pos h2]
        refine .bind hc fun now _ => .bind (parse_keeps E P cfg b hf _) fun x hx => ?_
        obtain ⟨st, h'⟩ := x
        dsimp only
        split
        · exact ih _ _ hx
        · exact .pure trivial
      · rw [if_neg h2]
        refine .bind hc fun now _ => ?_
        split
        · exact .bind (parse_keeps E P cfg b hf _) fun x hx => .pure trivial
        · split
          · exact ih _ _ hf
          · exact .pure trivial

theorem finish_keeps (cfg : Cfg) (st : Status) (total : Nat) (h : RS S σ) : Keeps I (finishReceive cfg st total h) fun _ => True := by
  unfold finishReceive
  refine .bind (Q := fun _ => True) ?_ fun x _ => ?_
  · split
    · cases h.ctx.cur with
      | none => exact .fault
      | some _ => exact .pure trivial
    · exact .pure trivial
  · obtain ⟨st, h⟩ := x
    dsimp only
    split
    · exact .bind (.bind (.assert _ _) fun _ _ => .pure (Q := fun _ => True) trivial) fun _ _ => .pure trivial
    · exact .pure trivial

theorem receive_keeps (P : Parser) (cfg : Cfg) {T : Transport σ} (hT : T.recv = some recv) {resp : Resp σ}
    (E : EnvInv I send recv resp.getTime resp.pHeaderParsingCallback) (rh : ReqHeaders) (fuel : Nat) :
    Keeps I (HTTPClient_ReceiveAndParseHttpResponse P cfg fuel (some T) (some resp) (some rh)) fun _ => True := by
  unfold HTTPClient_ReceiveAndParseHttpResponse
  simp only [hT]
  refine .bind (Q := fun _ => True) ?_ fun ctx _ => .bind (readClock_keeps E) fun last _ => ?_
  · unfold initializeParsingContext
    refine .bind (.assert _ _) fun _ _ => ?_
    cases rh.pBuffer with
    | none => exact .fault
    | some rb => exact .bind .world' fun _ _ => .bind (.ofRun _) fun _ _ => .pure trivial
  · cases resp.pBuffer with
    | none => exact .fault
    | some b => exact .bind (recvLoop_keeps E P cfg _ b fuel 0 last ⟨rfl, rfl⟩) fun x _ => finish_keeps cfg _ _ _

theorem sendLoop_keeps (E : EnvInv I send recv clock cb) (T : UInt32) (b : Nat) :
    ∀ (fuel off rem : Nat) (last : UInt32), Keeps I (sendLoop send clock T b fuel off rem last) fun _ => True := by
  intro fuel
  induction fuel with
  | zero => intro off rem last; unfold sendLoop; split
            · exact .pure trivial
            · exact .more
  | succ n ih =>
    intro off rem last
    unfold sendLoop
    by_cases h0 : rem = 0
    · rw [if_pos h0]; exact .pure trivial
    rw [if_neg h0]
    refine .world fun w hi => ?_
    dsimp only
    simp only [M.bind_apply, M.ofRun_apply]
    cases hr : memRead (w.mem b) off rem with
    | fault f => exact ⟨hi, fun _ _ => trivial⟩
    | more => exact ⟨hi, fun _ _ => trivial⟩
    | ok data =>
      have hd : data ≠ [] := by
        unfold memRead at hr
        split at hr
        · simp only [Run.ok.injEq] at hr
          intro h
          rw [← hr] at h
          have := congrArg List.length h
          simp at this
          omega
        · cases hr
      have hI := E.send w.env w.log data hd hi
      simp only [M.setEnv_apply, M.emit_apply]
      generalize send w.env data = r at hI
      generalize hw1 : (⟨r.2, w.mem, w.log ++ [.send data r.1]⟩ : World PLog σ) = w1
      have hI1 : I w1.env w1.log := by rw [← hw1]; exact hI
      revert hI1
      generalize w1 = w1
      revert w1
      show Keeps I _ _
      split
      · exact .pure trivial
      · split
        · exact .bind (.assert _ _) fun _ _ => .bind (readClock_keeps E) fun now _ => ih _ _ _
        · refine .bind (readClock_keeps E) fun now _ => ?_
          split
          · exact .pure trivial
          · exact ih _ _ _

theorem sendData_keeps (E : EnvInv I send recv clock cb) (cfg : Cfg) {T : Transport σ} (hT : T.send = some send) (b : Option Nat) (len fuel : Nat) :
    Keeps I (HTTPClient_SendHttpData cfg fuel (some T) clock b len) fun _ => True := by
  unfold HTTPClient_SendHttpData
  simp only [hT]
  cases b with
  | none => exact .fault
  | some b => exact .bind (readClock_keeps E) fun last _ => sendLoop_keeps E _ b fuel 0 len last

theorem sendRequest_keeps (E : EnvInv I send recv clock cb) (cfg : Cfg) {T : Transport σ} (hT : T.send = some send) (rh : ReqHeaders)
    (body : Option Nat) (n : Nat) (flags : UInt32) (fuel : Nat) :
    Keeps I (sendHttpRequest cfg fuel (some T) clock (some rh) body n flags) fun _ => True := by
  unfold sendHttpRequest
  refine .bind (.assert _ _) fun _ _ => .bind (.assert _ _) fun _ _ => .bind (.assert _ _) fun _ _ => .bind (.assert _ _) fun _ _ =>
    .bind (Q := fun _ => True) ?_ fun x _ => ?_
  · unfold HTTPClient_SendHttpHeaders
    simp only [hT]
    refine .bind .world' fun w _ => .bind (Q := fun _ => True) ?_ fun r _ => .bind (.setMem _) fun _ _ => ?_
    · split
      · exact .ofRun _
      · exact .pure trivial
    · split
      · exact .bind (sendData_keeps E cfg hT _ _ _) fun _ _ => .pure trivial
      · exact .pure trivial
  · split
    · cases body with
      | none => exact .pure trivial
      | some b =>
        refine .bind (Q := fun _ => True) ?_ fun _ _ => .pure trivial
        unfold sendHttpBody
        simp only [hT]
        exact sendData_keeps E cfg hT _ _ _
    · exact .pure trivial

end CoreHttp

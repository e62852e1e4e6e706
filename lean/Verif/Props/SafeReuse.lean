import Verif.Spec.SafeReuse
import Verif.Props.Resume
import Verif.Props.Session
import Verif.Props.Reuse
import Verif.Props.Timeout

/-! # C108: a connection used again only after HTTPSuccess -/

namespace CoreHttp.Props
open CoreHttp Spec Ref Machine
variable {σ : Type} {cfg : Cfg} {T : Transport σ} {send : σ → Bytes → Int × σ} {recv : σ → Nat → Int × Bytes × σ}
  {resp : Resp σ} {rh : ReqHeaders} {b rb : Nat} {body : Option Nat} {n : Nat} {flags : UInt32}
  {answer : List Bytes → Bytes → Response} {Q : Bytes → Prop} {got sent : σ → Bytes}

/-- While sending. -/
def SendingOn (got sent : σ → Bytes) (g0 s0 : Bytes) (l0 : List (Ev PLog)) (s : σ) (l : List (Ev PLog)) : Prop :=
  ∃ evs, l = l0 ++ evs ∧ got s = g0 ++ accepted evs ∧ sent s = s0

theorem sendingOn_snoc {g0 s0 : Bytes} {l0 l : List (Ev PLog)} {s s' : σ} {e : Ev PLog} (h : SendingOn got sent g0 s0 l0 s l)
    (he : ∀ d ret, e ≠ .send d ret) (h1 : got s' = got s) (h2 : sent s' = sent s) : SendingOn got sent g0 s0 l0 s' (l ++ [e]) := by
  obtain ⟨evs, rfl, g1, g2⟩ := h
  have ha : accepted (evs ++ [e]) = accepted evs := by
    rw [accepted_append']
    cases e with
    | send d ret => exact absurd rfl (he d ret)
    | _ => simp [accepted]
  exact ⟨evs ++ [e], by simp, by rw [ha, h1]; exact g1, by rw [h2]; exact g2⟩

theorem sendingOn_inv (hS : AnsweringServer answer Q got sent send recv resp) (g0 s0 : Bytes) (l0 : List (Ev PLog)) :
    EnvInv (SendingOn got sent g0 s0 l0) send (fun s _ => (0, [], s)) resp.getTime resp.pHeaderParsingCallback where
  stored := fun _ _ => Nat.le_refl _
  send := by
    rintro s l d hd ⟨evs, rfl, h1, h2⟩
    have ha : accepted (evs ++ [.send d (send s d).1]) = accepted evs ++ d.take (send s d).1.toNat := by
      rw [accepted_append']; simp [accepted]
    exact ⟨evs ++ [.send d (send s d).1], by simp, by rw [ha, (hS.takes s d).1, h1, List.append_assoc], (hS.takes s d).2.trans h2⟩
  recv := fun s l off len h => sendingOn_snoc h (by simp) rfl rfl
  zero := fun _ s l h => sendingOn_snoc h (by simp) rfl rfl
  user := fun f hf s l h => sendingOn_snoc h (by simp) (hS.clock f hf s).1 (hS.clock f hf s).2
  header := fun c hc s l a f b v code h => sendingOn_snoc h (by simp) (hS.header c hc s a f b v code).1 (hS.header c hc s a f b v code).2
  call := fun s l off data h => sendingOn_snoc h (by simp) rfl rfl
  event := fun s l e h => sendingOn_snoc h (by simp) rfl rfl

/-- While receiving. -/
def ReceivingOn (got sent : σ → Bytes) (g0 s0 all : Bytes) (l0 : List (Ev PLog)) (s : σ) (l : List (Ev PLog)) : Prop :=
  ∃ evs, l = l0 ++ evs ∧ got s = g0 ∧ sent s = s0 ++ received evs ∧ sent s <+: all

theorem receivingOn_snoc {g0 s0 all : Bytes} {l0 l : List (Ev PLog)} {s s' : σ} {e : Ev PLog} (h : ReceivingOn got sent g0 s0 all l0 s l)
    (he : ∀ off len ret data, e ≠ .recv off len ret data) (h1 : got s' = got s) (h2 : sent s' = sent s) :
    ReceivingOn got sent g0 s0 all l0 s' (l ++ [e]) := by
  obtain ⟨evs, rfl, g1, g2, g3⟩ := h
  have hr : received (evs ++ [e]) = received evs := by
    rw [received_append]
    cases e with
    | recv off len ret data => exact absurd rfl (he off len ret data)
    | _ => simp [received]
  exact ⟨evs ++ [e], by simp, h1.trans g1, by rw [hr, h2]; exact g2, by rw [h2]; exact g3⟩

theorem receivingOn_inv (hS : AnsweringServer answer Q got sent send recv resp) {qs : List Bytes} (hQ : ∀ q ∈ qs, Q q) (s0 : Bytes)
    (l0 : List (Ev PLog)) :
    EnvInv (ReceivingOn got sent qs.flatten s0 (answersTo answer [] qs) l0) (fun s _ => (0, s)) recv resp.getTime resp.pHeaderParsingCallback where
  stored := fun s len => (hS.delivers s len).1
  send := fun s l d _ h => receivingOn_snoc h (by simp) rfl rfl
  recv := by
    rintro s l off len ⟨evs, rfl, g1, g2, g3⟩
    refine ⟨evs ++ [.recv off len (recv s len).1 ((recv s len).2.1.take (recv s len).1.toNat)], by simp, (hS.delivers s len).2.1.trans g1, ?_,
      hS.answers s len qs hQ g1 g3⟩
    rw [received_append]
    simp only [received, List.append_nil]
    rw [(hS.delivers s len).2.2, g2, List.append_assoc]
  zero := fun _ s l h => receivingOn_snoc h (by simp) rfl rfl
  user := fun f hf s l h => receivingOn_snoc h (by simp) (hS.clock f hf s).1 (hS.clock f hf s).2
  header := fun c hc s l a f b v code h => receivingOn_snoc h (by simp) (hS.header c hc s a f b v code).1 (hS.header c hc s a f b v code).2
  call := fun s l off data h => receivingOn_snoc h (by simp) rfl rfl
  event := fun s l e h => receivingOn_snoc h (by simp) rfl rfl

theorem answersTo_append (answer : List Bytes → Bytes → Response) (done qs qs' : List Bytes) :
    answersTo answer done (qs ++ qs') = answersTo answer done qs ++ answersTo answer (done ++ qs) qs' := by
  induction qs generalizing done with
  | nil => simp [answersTo]
  | cons q qs ih => simp [answersTo, ih, List.append_assoc]

/-- **C108, one call.** When exactly the answers to the requests before have been delivered on the connection: everything that the call reports is part of the
answer to its own request, and with HTTPSuccess it is all of it, and exactly the answers to the requests so far have been delivered on the connection. -/
theorem C108_call {w : World PLog σ} {head : Bool} {done : List Bytes} (hp : CallPre true httpParser cfg T send recv rh rb body n resp b w.mem)
    (hreq : ReqIs head (headerBlock w.mem rh)) (hflag : ¬ headersOnly resp.respOptionFlags) (hS : AnsweringServer answer Q got sent send recv resp)
    (hQ : ∀ q ∈ done, Q q) (hQ' : Q (wireRequest w.mem rh body n flags)) (ok : (answer done (wireRequest w.mem rh body n flags)).Ok head)
    (hgot : got w.env = done.flatten) (hsent : sent w.env = answersTo answer [] done) {fuel : Nat} {st : Status} {rh' : Option ReqHeaders}
    {resp' : Resp σ} {w' : World PLog σ} {evs : List (Ev PLog)}
    (e : HTTPClient_Send httpParser cfg fuel (some T) (some rh) body n (some resp) flags w = (.ok (st, rh', some resp'), w')) (hl : w'.log = w.log ++ evs) :
    (st ≠ .success ∧ received evs = [] ∧ resp' = withClock resp) ∨
    (st ≠ .success ∧ GotPart cfg (answer done (wireRequest w.mem rh body n flags)) resp.pHeaderParsingCallback.isSome evs (received evs) w'.mem resp') ∨
    (st = .success ∧ received evs = (answer done (wireRequest w.mem rh body n flags)).bytes ∧
      Got cfg (answer done (wireRequest w.mem rh body n flags)) resp.pHeaderParsingCallback.isSome evs w'.mem resp' ∧
      got w'.env = (done ++ [wireRequest w.mem rh body n flags]).flatten ∧
      sent w'.env = answersTo answer [] (done ++ [wireRequest w.mem rh body n flags])) := by
  have hblk : 16 ≤ (headerBlock w.mem rh).length := by
    have h1 := hp.reqLen; have h2 := hp.reqRoom; have h3 := hp.reqLe
    unfold headerBlock; rw [hp.reqBuf]; simp only [List.length_take]; omega
  have hS' : AnsweringServer answer Q got sent send recv (withClock resp) :=
    { hS with
      clock := by
        intro f hf
        refine hS.clock f ?_
        unfold withClock at hf
        cases hc : resp.getTime <;> rw [hc] at hf <;> first | exact hf | cases hf
      header := hS.header }
  generalize hq : wireRequest w.mem rh body n flags = q at *
  have hk := (sendRequest_keeps (sendingOn_inv hS' done.flatten (answersTo answer [] done) w.log) cfg hp.hasSend rh body n flags fuel w
    ⟨[], by simp, by simpa [accepted] using hgot, hsent⟩).1
  rw [send_eq hp fuel] at e
  simp only [M.bind_apply] at e
  rcases sendRequest_spec (flags := flags) (withClock_ne resp) hp fuel with ⟨h1, h2⟩ | ⟨h1, q', s', m', rh1, evs1, e1, hfr, hb, hbl, hle, hB, hlen, h2⟩
  · rw [h2] at e
    cases e
    obtain rfl : evs = [] := List.append_cancel_left (hl.symm.trans (List.append_nil _).symm)
    exact .inl ⟨by simp, rfl, rfl⟩
  rw [e1] at hk e
  rcases h2 with ⟨rfl, hph⟩ | ⟨rfl | rfl, hph⟩
  · obtain ⟨evs1', hl1, k1, k2⟩ := hk
    obtain rfl : evs1 = evs1' := List.append_cancel_left hl1
    obtain ⟨s1, s2, _, s4⟩ := sending_kinds hph.kinds
    have hacc : accepted evs1 = q := (hph.all_ rfl).trans hq
    have hr := recvPre_of hp hfr hb hbl hle hB hlen
    have hQq : ∀ x ∈ done ++ [q], Q x := by
      intro x hx
      rcases List.mem_append.mp hx with h | h
      · exact hQ x h
      · rw [List.mem_singleton.mp h]; exact hQ'
    have hall : answersTo answer [] (done ++ [q]) = answersTo answer [] done ++ (answer done q).bytes := by
      rw [answersTo_append]; simp [answersTo]
    obtain ⟨res, w2, evs2, e', hl', hns, _, _⟩ := receive_no_send (w := ⟨s', m', w.log ++ evs1⟩) hr fuel
    have hk2 := (receive_keeps httpParser cfg hr.hasRecv (receivingOn_inv hS' hQq (sent s') (w.log ++ evs1)) rh1 fuel ⟨s', m', w.log ++ evs1⟩
      ⟨[], by simp, by rw [k1, hacc]; simp, by simp [received], by rw [k2, hall]; exact List.prefix_append _ _⟩).1
    rw [e'] at hk2
    obtain ⟨evs2', hl2, g1, g2, g3⟩ := hk2
    obtain rfl : evs2 = evs2' := List.append_cancel_left (hl'.symm.trans hl2)
    simp only [if_true, M.bind_apply, e'] at e
    cases res with
    | fault f => cases e
    | more => cases e
    | ok a =>
      obtain ⟨st1, resp1⟩ := a
      cases e
      obtain rfl : evs = evs1 ++ evs2 := List.append_cancel_left (by rw [← hl, hl', List.append_assoc])
      have hrec : received (evs1 ++ evs2) = received evs2 := by rw [received_append, s4]; rfl
      have hrep : reported (evs1 ++ evs2) = reported evs2 := by rw [reported_append, s2]; rfl
      have hpre : received evs2 <+: (answer done q).bytes := by
        rw [g2, k2, hall] at g3
        exact (List.prefix_append_right_inj _).mp g3
      rw [hrec]
      rcases receive_part (w := ⟨s', m', w.log ++ evs1⟩) (r := answer done q) (head := head) hr ok
        (by dsimp only; rw [hB]; exact reqIs_wire hblk _ _ hreq) hflag e' hl' hpre with ⟨q1, q2, q3⟩ | ⟨q1, q2, ⟨q3, q4⟩ | q3⟩
      · exact .inr (.inr ⟨q1, q2, { q3 with reported := by rw [hrep]; exact q3.reported }, g1, by rw [g2, k2, hall, q2]⟩)
      · exact .inl ⟨q1, q3, q4⟩
      · exact .inr (.inl ⟨q1, q3.1, by rw [hrep]; exact q3.2, by rw [hrep]; exact q3.3, q3.4, q3.5, q3.6, fun h => { q3.7 h with
          reported := by rw [hrep]; exact (q3.7 h).reported }⟩)
  · cases e
    obtain rfl : evs = evs1 := List.append_cancel_left hl.symm
    exact .inl ⟨by simp, (sending_kinds hph.kinds).2.2.2, rfl⟩
  · cases e

/-- **C108.** An application makes any number of calls of HTTPClient_Send with the same objects, does what it likes in between, and reconnects as it likes; the
network may fail at any time. If it uses a connection again only after HTTPSuccess, then no call takes anything for its response that is not: for every call
`x`, where `conn` are the calls before it on the same connection, everything that `x` reports – whatever it returns – is part of the server's answer to the
request of `x`, after the requests of `conn`; and if it returns HTTPSuccess, that answer was received, exactly, and all of it is reported. -/
theorem C108_session {keep : Bool} {rh' : ReqHeaders} {resp' : Resp σ} {w w' : World PLog σ} {xs : List (Exchange σ)}
    (hs : Session httpParser cfg T keep rh resp w xs rh' resp' w')
    (hp : ∀ x ∈ xs, CallPre true httpParser cfg T send recv rh rb x.body x.bodyLen resp b w.mem)
    (hS : ∀ x ∈ xs, AnsweringServer answer Q got sent send recv x.resp) (hQ : ∀ x ∈ xs, Q x.wire)
    (hans : ∀ x ∈ xs, ∃ head, ReqIs head (headerBlock x.before.mem x.req) ∧ ∀ done, (answer done x.wire).Ok head)
    (hflag : ∀ x ∈ xs, ¬ headersOnly x.resp.respOptionFlags)
    {before conn after : List (Exchange σ)} {x : Exchange σ} (hx : xs = before ++ conn ++ x :: after) (hreuse : SafelyReused got sent (conn ++ [x])) :
    (x.status = .success → received x.events = (answer (conn.map Exchange.wire) x.wire).bytes ∧
      Got cfg (answer (conn.map Exchange.wire) x.wire) x.resp.pHeaderParsingCallback.isSome x.events x.after.mem x.resp') ∧
    (x.status ≠ .success → (received x.events = [] ∧ x.resp' = withClock x.resp) ∨
      GotPart cfg (answer (conn.map Exchange.wire) x.wire) x.resp.pHeaderParsingCallback.isSome x.events (received x.events) x.after.mem x.resp') := by
  have hall := C63_session hs hp
  have one : ∀ y ∈ xs, ∀ done, (∀ q ∈ done, Q q) → got y.before.env = done.flatten → sent y.before.env = answersTo answer [] done →
      (y.status ≠ .success ∧ received y.events = [] ∧ y.resp' = withClock y.resp) ∨
      (y.status ≠ .success ∧ GotPart cfg (answer done y.wire) y.resp.pHeaderParsingCallback.isSome y.events (received y.events) y.after.mem y.resp') ∨
      (y.status = .success ∧ received y.events = (answer done y.wire).bytes ∧
        Got cfg (answer done y.wire) y.resp.pHeaderParsingCallback.isSome y.events y.after.mem y.resp' ∧
        got y.after.env = (done ++ [y.wire]).flatten ∧ sent y.after.env = answersTo answer [] (done ++ [y.wire])) := by
    intro y hy done h1 h2 h3
    obtain ⟨c1, c2, c3⟩ := hall y hy
    obtain ⟨head, c4, c5⟩ := hans y hy
    exact C108_call (head := head) (done := done) c1 c4 (hflag y hy) (hS y hy) h1 (hQ y hy) (c5 done) h2 h3 c2 c3
  have key : ∀ (l : List (Exchange σ)) (p : Exchange σ) (done : List Bytes), (∀ y ∈ p :: l, y ∈ xs) → (∀ q ∈ done, Q q) →
      got p.before.env = done.flatten → sent p.before.env = answersTo answer [] done → Continues got sent p l →
      ∀ cs y, p :: l = cs ++ [y] → got y.before.env = (done ++ cs.map Exchange.wire).flatten ∧
        sent y.before.env = answersTo answer [] (done ++ cs.map Exchange.wire) := by
    intro l
    induction l with
    | nil =>
      intro p done hm hq h1 h2 _ cs y hcs
      cases cs with
      | nil => cases hcs; simpa using ⟨h1, h2⟩
      | cons c cs => simp at hcs
    | cons z l ih =>
      intro p done hm hq h1 h2 hc cs y hcs
      obtain ⟨c1, c2, c3, c4⟩ := hc
      cases cs with
      | nil => simp at hcs
      | cons c cs =>
        simp only [List.cons_append, List.cons.injEq] at hcs
        obtain ⟨rfl, hcs⟩ := hcs
        rcases one p (hm p List.mem_cons_self) done hq h1 h2 with ⟨o, _⟩ | ⟨o, _⟩ | ⟨_, _, _, o1, o2⟩
        · exact absurd c1 o
        · exact absurd c1 o
        · have := ih z (done ++ [p.wire]) (fun y hy => hm y (List.mem_cons_of_mem _ hy))
            (fun q hq' => by
              rcases List.mem_append.mp hq' with h | h
              · exact hq q h
              · rw [List.mem_singleton.mp h]; exact hQ p (hm p List.mem_cons_self))
            (c2.trans o1) (c3.trans o2) c4 cs y hcs
          simpa [List.append_assoc] using this
  have hmem : ∀ y ∈ conn ++ [x], y ∈ xs := by
    intro y hy
    rw [hx]
    rcases List.mem_append.mp hy with h | h
    · exact List.mem_append_left _ (List.mem_append_right _ h)
    · rw [List.mem_singleton.mp h]; exact List.mem_append_right _ List.mem_cons_self
  have hat : got x.before.env = (conn.map Exchange.wire).flatten ∧ sent x.before.env = answersTo answer [] (conn.map Exchange.wire) := by
    cases hc : conn ++ [x] with
    | nil => simp at hc
    | cons p l =>
      rw [hc] at hreuse
      have := key l p [] (by rw [← hc]; exact hmem) (fun q h => absurd h (List.not_mem_nil)) (by rw [hreuse.1]; rfl) (by rw [hreuse.2.1]; rfl) hreuse.2.2
        conn x hc.symm
      simpa using this
  have hxm : x ∈ xs := hmem x (by simp)
  have hconnQ : ∀ q ∈ conn.map Exchange.wire, Q q := by
    intro q hq
    obtain ⟨y, hy, rfl⟩ := List.mem_map.mp hq
    exact hQ y (hmem y (List.mem_append_left _ hy))
  rcases one x hxm _ hconnQ hat.1 hat.2 with ⟨o, o1, o2⟩ | ⟨o, o1⟩ | ⟨o, o1, o2, _⟩
  · exact ⟨fun h => absurd h o, fun _ => .inl ⟨o1, o2⟩⟩
  · exact ⟨fun h => absurd h o, fun _ => .inr o1⟩
  · exact ⟨fun _ => ⟨o1, o2⟩, fun h => absurd o h⟩

/-! ## A concrete case -/

/-- The clock, what the server got and what was delivered. -/
abbrev ReuseEnv := Nat × Bytes × Bytes

/-- The first answer, and all others. -/
def twoAnswers (done : List Bytes) (_ : Bytes) : Response := if done.length = 0 then short else Props.answer

/-- Everything that is to be delivered after `k` requests. -/
def dueAfter (k : Nat) : Bytes := answersTo twoAnswers [] (List.replicate k exGet)

def reuseSend : ReuseEnv → Bytes → Int × ReuseEnv := fun (t, g, s) d => (d.length, (t + 1, g ++ d, s))
/-- Deliver at most 9 bytes. -/
def reuseRecv : ReuseEnv → Nat → Int × Bytes × ReuseEnv := fun (t, g, s) len =>
  let d := ((dueAfter (g.length / exGet.length)).drop s.length).take (min len 9)
  (d.length, d, (t + 1, g, s ++ d))
def reuseT : Transport ReuseEnv := ⟨some reuseSend, some reuseRecv⟩
def reuseResp : Resp ReuseEnv := ⟨some 1, 60, some (.user fun s _ _ _ _ _ => s), .user fun s => (UInt32.ofNat s.1, s), some 3, 4, some 5, 6, 999, 77, 8, 1, 0, 3⟩

theorem exGets {qs : List Bytes} (h : ∀ q ∈ qs, q = exGet) : qs = List.replicate qs.length exGet := List.eq_replicate_of_mem h

theorem reuse_server (resp : Resp ReuseEnv) (h1 : resp.getTime = reuseResp.getTime) (h2 : resp.pHeaderParsingCallback = reuseResp.pHeaderParsingCallback) :
    AnsweringServer twoAnswers (· = exGet) (fun s => s.2.1) (fun s => s.2.2) reuseSend reuseRecv resp where
  takes := fun s d => by simp [reuseSend]
  delivers := fun s len => by
    obtain ⟨t, g, s⟩ := s
    generalize hd : ((dueAfter (g.length / exGet.length)).drop s.length).take (min len 9) = d
    have e : reuseRecv (t, g, s) len = ((d.length : Int), d, (t + 1, g, s ++ d)) := by simp only [reuseRecv, hd]
    rw [e]
    simp
  answers := by
    rintro ⟨t, g, s⟩ len qs hQ hg hs
    dsimp only at hg hs
    have hk : g.length / exGet.length = qs.length := by
      rw [hg, exGets hQ, List.length_flatten]
      simp [show exGet.length = 18 from rfl]
    have hd : dueAfter (g.length / exGet.length) = answersTo twoAnswers [] qs := by
      unfold dueAfter; rw [hk, ← exGets hQ]
    show s ++ ((dueAfter (g.length / exGet.length)).drop s.length).take (min len 9) <+: _
    rw [hd]
    obtain ⟨u, hu⟩ := hs
    rw [← hu, List.drop_left]
    exact (List.prefix_append_right_inj _).mpr (List.take_prefix _ _)
  clock := by intro f hf s; rw [h1] at hf; cases hf; exact ⟨rfl, rfl⟩
  header := by intro c hc; rw [h2] at hc; cases hc; intros; exact ⟨rfl, rfl⟩

/-- The conditions for the calls. -/
theorem reuse_pre : CallPre true httpParser exCfg reuseT reuseSend reuseRecv (exReq exGet) 0 none 0 reuseResp 1 (exRMem exGet 60) where
  parser := httpParser_ok
  hasSend := rfl
  sendOk := fun s d => by simp [reuseSend]
  hasRecv := rfl
  recvOk := fun s len => by
    obtain ⟨t, g, s⟩ := s
    generalize hd : ((dueAfter (g.length / exGet.length)).drop s.length).take (min len 9) = d
    have e : reuseRecv (t, g, s) len = ((d.length : Int), d, (t + 1, g, s ++ d)) := by simp only [reuseRecv, hd]
    have h2 : d.length ≤ len := by rw [← hd, List.length_take]; omega
    rw [e]
    simp only
    omega
  reqBuf := rfl
  reqRoom := by decide +kernel
  reqLen := by decide +kernel
  reqLe := by decide +kernel
  reqSize := by decide +kernel
  buf := rfl
  pos := by decide
  room := by decide +kernel
  size := by decide
  callback := by simp [reuseResp]
  bodyNone := fun _ => rfl
  bodyRoom := by intro bb h; cases h
  bodyMax := by decide

/-- One call, as a step of a session. -/
def reuseCall (rh : ReqHeaders) (resp : Resp ReuseEnv) (w : World PLog ReuseEnv) : Option (Exchange ReuseEnv) :=
  match HTTPClient_Send httpParser exCfg 100 (some reuseT) (some rh) none 0 (some resp) 0 w with
  | (.ok (st, some rh1, some resp1), w1) =>
    if w1.log = w.log ++ w1.log.drop w.log.length then some ⟨none, 0, 0, 100, rh, resp, w, st, rh1, resp1, w1, w1.log.drop w.log.length⟩ else none
  | _ => none

theorem reuseCall_session {rh : ReqHeaders} {resp : Resp ReuseEnv} {w : World PLog ReuseEnv} {x : Exchange ReuseEnv} {xs : List (Exchange ReuseEnv)}
    {rh2 : ReqHeaders} {resp2 : Resp ReuseEnv} {w2 : World PLog ReuseEnv} (h : reuseCall rh resp w = some x)
    (hs : Session httpParser exCfg reuseT false x.req' x.resp' x.after xs rh2 resp2 w2) :
    Session httpParser exCfg reuseT false rh resp w (x :: xs) rh2 resp2 w2 := by
  unfold reuseCall at h
  split at h
  · rename_i st rh1 resp1 w1 e
    split at h
    · rename_i hl
      cases h
      exact .call e hl hs
    · cases h
  · cases h

/-- Two calls over one connection, and a third one over a new one. -/
def reuseThree : Option (Exchange ReuseEnv × Exchange ReuseEnv × Exchange ReuseEnv) :=
  match reuseCall (exReq exGet) reuseResp ⟨(0, [], []), exRMem exGet 60, []⟩ with
  | none => none
  | some x => match reuseCall x.req' x.resp' x.after with
    | none => none
    | some y => match reuseCall y.req' y.resp' ⟨(y.after.env.1, [], []), y.after.mem, y.after.log⟩ with
      | none => none
      | some z => some (x, y, z)

def reuseOk (x : Exchange ReuseEnv) (d : String) : Bool :=
  decide (x.status = .success) && decide (bodyBytes x.after.mem x.resp' = ascii d) && decide (x.wire = exGet) &&
    decide (headerBlock x.before.mem x.req = exGet)

def reuseGood : Bool :=
  match reuseThree with
  | some (x, y, z) => reuseOk x "first" && reuseOk y "second" && reuseOk z "first"
  | none => false

theorem reuseOk_spec {x : Exchange ReuseEnv} {d : String} (h : reuseOk x d = true) :
    x.status = .success ∧ bodyBytes x.after.mem x.resp' = ascii d ∧ x.wire = exGet ∧ headerBlock x.before.mem x.req = exGet := by
  unfold reuseOk at h
  simp only [Bool.and_eq_true, decide_eq_true_eq] at h
  exact ⟨h.1.1.1, h.1.1.2, h.1.2, h.2⟩

theorem reuseCall_fields {rh : ReqHeaders} {resp : Resp ReuseEnv} {w : World PLog ReuseEnv} {x : Exchange ReuseEnv} (h : reuseCall rh resp w = some x) :
    x.req = rh ∧ x.resp = resp ∧ x.before = w ∧ x.body = none ∧ x.bodyLen = 0 ∧
    HTTPClient_Send httpParser exCfg 100 (some reuseT) (some rh) none 0 (some resp) 0 w = (.ok (x.status, some x.req', some x.resp'), x.after) := by
  unfold reuseCall at h
  split at h
  · rename_i st rh1 resp1 w1 e
    split at h
    · cases h; exact ⟨rfl, rfl, rfl, rfl, rfl, e⟩
    · cases h
  · cases h

/-- The hypotheses of C108 hold for three calls: two over one connection, answered with the first and the second answer, and a third one over a new
connection, answered with the first answer again. -/
example : ∃ x y z rh' resp' w',
    Session httpParser exCfg reuseT false (exReq exGet) reuseResp ⟨(0, [], []), exRMem exGet 60, []⟩ [x, y, z] rh' resp' w' ∧
    (∀ u ∈ [x, y, z], CallPre true httpParser exCfg reuseT reuseSend reuseRecv (exReq exGet) 0 u.body u.bodyLen reuseResp 1 (exRMem exGet 60)) ∧
    (∀ u ∈ [x, y, z], AnsweringServer twoAnswers (· = exGet) (fun s => s.2.1) (fun s => s.2.2) reuseSend reuseRecv u.resp ∧ u.wire = exGet ∧
      ReqIs false (headerBlock u.before.mem u.req) ∧ (∀ done, (twoAnswers done u.wire).Ok false) ∧ ¬ headersOnly u.resp.respOptionFlags ∧
      u.status = .success) ∧
    SafelyReused (fun s => s.2.1) (fun s => s.2.2) [x, y] ∧ SafelyReused (fun s => s.2.1) (fun s => s.2.2) [z] ∧
    bodyBytes x.after.mem x.resp' = ascii "first" ∧ bodyBytes y.after.mem y.resp' = ascii "second" ∧ bodyBytes z.after.mem z.resp' = ascii "first" := by
  have hgood : reuseGood = true := by decide +kernel
  unfold reuseGood reuseThree at hgood
  split at hgood
  case h_2 => cases hgood
  rename_i x y z hthree
  split at hthree
  · cases hthree
  rename_i x' hx
  split at hthree
  · cases hthree
  rename_i y' hy
  split at hthree
  · cases hthree
  rename_i z' hz
  cases hthree
  simp only [Bool.and_eq_true] at hgood
  obtain ⟨⟨gx, gy⟩, gz⟩ := hgood
  obtain ⟨x1, x2, x3, x4⟩ := reuseOk_spec gx
  obtain ⟨y1, y2, y3, y4⟩ := reuseOk_spec gy
  obtain ⟨z1, z2, z3, z4⟩ := reuseOk_spec gz
  obtain ⟨fx1, fx2, fx3, fx4, fx5, fx6⟩ := reuseCall_fields hx
  obtain ⟨fy1, fy2, fy3, fy4, fy5, fy6⟩ := reuseCall_fields hy
  obtain ⟨fz1, fz2, fz3, fz4, fz5, fz6⟩ := reuseCall_fields hz
  have px := reuse_pre
  obtain ⟨_, _, rx1, rx2, sx, bx1, bx2, bx3, bx4, _⟩ := send_leaves (w := ⟨(0, [], []), exRMem exGet 60, []⟩) px fx6
  cases rx1; cases rx2
  obtain ⟨_, _, ex, _, _, mx, _⟩ := C60_safe (w := (⟨(0, [], []), exRMem exGet 60, []⟩ : World PLog ReuseEnv)) (flags := 0) px 100
  rw [fx6] at ex; cases ex
  have py := callPre_mono px mx bx1 bx2 bx3 bx4 sx.1 sx.2.1 (by rw [sx.2.2.1]; exact px.callback)
  obtain ⟨_, _, ry1, ry2, sy, by1, by2, by3, by4, _⟩ := send_leaves (w := x.after) py fy6
  cases ry1; cases ry2
  have hcx : x.resp'.getTime = reuseResp.getTime ∧ x.resp'.pHeaderParsingCallback = reuseResp.pHeaderParsingCallback ∧
      x.resp'.respOptionFlags = reuseResp.respOptionFlags := ⟨sx.2.2.2.1, sx.2.2.1, sx.2.2.2.2⟩
  have hcy : y.resp'.getTime = reuseResp.getTime ∧ y.resp'.pHeaderParsingCallback = reuseResp.pHeaderParsingCallback ∧
      y.resp'.respOptionFlags = reuseResp.respOptionFlags :=
    ⟨by rw [sy.2.2.2.1]; unfold withClock; rw [hcx.1]; rfl, sy.2.2.1.trans hcx.2.1, sy.2.2.2.2.trans hcx.2.2⟩
  have hok : ∀ done q, (twoAnswers done q).Ok false := by
    intro done q
    unfold twoAnswers
    split
    · exact short_ok
    · exact answer_ok
  have hhead : ReqIs false exGet := show ¬ ascii "HEAD" <+: exGet by decide
  refine ⟨x, y, z, z.req', z.resp', z.after, ?_, ?_, ?_, ?_, ?_, x2, y2, z2⟩
  · refine reuseCall_session hx (reuseCall_session hy (.app ?_ (reuseCall_session hz (.nil _ _ _))))
    exact ⟨fun _ => rfl, ⟨rfl, rfl⟩, ⟨by3, by4⟩, ⟨rfl, rfl⟩, (by rw [hcy.2.1]; simp [reuseResp]), (fun h => nomatch h)⟩
  · intro u hu
    simp only [List.mem_cons, List.not_mem_nil, or_false] at hu
    rcases hu with rfl | rfl | rfl
    · rw [fx4, fx5]; exact reuse_pre
    · rw [fy4, fy5]; exact reuse_pre
    · rw [fz4, fz5]; exact reuse_pre
  · intro u hu
    simp only [List.mem_cons, List.not_mem_nil, or_false] at hu
    have hf : ¬ headersOnly reuseResp.respOptionFlags := show ¬ ((0 : UInt32).toNat % 2 = 1) by decide
    rcases hu with rfl | rfl | rfl
    · refine ⟨reuse_server _ (by rw [fx2]) (by rw [fx2]), x3, by rw [x4]; exact hhead, fun _ => hok _ _, by rw [fx2]; exact hf, x1⟩
    · refine ⟨reuse_server _ (by rw [fy2]; exact hcx.1) (by rw [fy2]; exact hcx.2.1), y3, by rw [y4]; exact hhead, fun _ => hok _ _,
        by rw [fy2, hcx.2.2]; exact hf, y1⟩
    · refine ⟨reuse_server _ (by rw [fz2]; exact hcy.1) (by rw [fz2]; exact hcy.2.1), z3, by rw [z4]; exact hhead, fun _ => hok _ _,
        by rw [fz2, hcy.2.2]; exact hf, z1⟩
  · exact ⟨by rw [fx3], by rw [fx3], x1, by rw [fy3], by rw [fy3], trivial⟩
  · exact ⟨by rw [fz3], by rw [fz3], trivial⟩

end CoreHttp.Props

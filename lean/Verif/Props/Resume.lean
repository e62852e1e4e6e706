import Verif.Props.Download
import Verif.Props.NetworkError
import Verif.Spec.Resume

/-! # C90: resuming an interrupted download -/

namespace CoreHttp.Props
open CoreHttp Spec Ref Machine
variable {σ : Type} {cfg : Cfg} {T : Transport σ} {send : σ → Bytes → Int × σ} {recv : σ → Nat → Int × Bytes × σ}
  {resp : Resp σ} {rh h : ReqHeaders} {b rb : Nat} {body : Option Nat} {n : Nat} {flags : UInt32} {serves : Bytes → Bytes → Prop} {got rest : σ → Bytes}

/-- While sending. -/
def SendingTo (serves : Bytes → Bytes → Prop) (got rest : σ → Bytes) (l0 : List (Ev PLog)) (s : σ) (l : List (Ev PLog)) : Prop :=
  ∃ evs, l = l0 ++ evs ∧ got s = accepted evs ∧ (accepted evs ≠ [] → serves (accepted evs) (rest s))

theorem sendingTo_snoc {l0 l : List (Ev PLog)} {s s' : σ} {e : Ev PLog} (h : SendingTo serves got rest l0 s l) (he : ∀ d ret, e ≠ .send d ret)
    (h1 : got s' = got s) (h2 : rest s' = rest s) : SendingTo serves got rest l0 s' (l ++ [e]) := by
  obtain ⟨evs, rfl, g1, g2⟩ := h
  have ha : accepted (evs ++ [e]) = accepted evs := by
    rw [accepted_append']
    cases e with
    | send d ret => exact absurd rfl (he d ret)
    | _ => simp [accepted]
  exact ⟨evs ++ [e], by simp, by rw [ha, h1]; exact g1, by rw [ha, h2]; exact g2⟩

theorem sendingTo_inv (hS : FlakyServer serves got rest send recv resp) (l0 : List (Ev PLog)) :
    EnvInv (SendingTo serves got rest l0) send (fun s _ => (0, [], s)) resp.getTime resp.pHeaderParsingCallback where
  stored := fun _ _ => Nat.le_refl _
  send := by
    rintro s l d hd ⟨evs, rfl, h1, h2⟩
    have ha : accepted (evs ++ [.send d (send s d).1]) = accepted evs ++ d.take (send s d).1.toNat := by
      rw [accepted_append']; simp [accepted]
    refine ⟨evs ++ [.send d (send s d).1], by simp, by rw [ha, hS.takes, h1], fun _ => ?_⟩
    rw [ha, ← h1, ← hS.takes]
    exact hS.answers s d
  recv := fun s l off len h => sendingTo_snoc h (by simp) rfl rfl
  zero := fun _ s l h => sendingTo_snoc h (by simp) rfl rfl
  user := fun f hf s l h => sendingTo_snoc h (by simp) (hS.clock f hf s).1 (hS.clock f hf s).2
  header := fun c hc s l a f b v code h => sendingTo_snoc h (by simp) (hS.header c hc s a f b v code).1 (hS.header c hc s a f b v code).2
  call := fun s l off data h => sendingTo_snoc h (by simp) rfl rfl
  event := fun s l e h => sendingTo_snoc h (by simp) rfl rfl

/-- While receiving. -/
def ReceivingOf (answer : Bytes) (rest : σ → Bytes) (l0 : List (Ev PLog)) (s : σ) (l : List (Ev PLog)) : Prop :=
  ∃ evs, l = l0 ++ evs ∧ received evs ++ rest s = answer

theorem receivingOf_snoc {answer : Bytes} {l0 l : List (Ev PLog)} {s s' : σ} {e : Ev PLog} (h : ReceivingOf answer rest l0 s l)
    (he : ∀ off len ret data, e ≠ .recv off len ret data) (h2 : rest s' = rest s) : ReceivingOf answer rest l0 s' (l ++ [e]) := by
  obtain ⟨evs, rfl, g⟩ := h
  have hr : received (evs ++ [e]) = received evs := by
    rw [received_append]
    cases e with
    | recv off len ret data => exact absurd rfl (he off len ret data)
    | _ => simp [received]
  exact ⟨evs ++ [e], by simp, by rw [hr, h2]; exact g⟩

theorem receivingOf_inv (hS : FlakyServer serves got rest send recv resp) (answer : Bytes) (l0 : List (Ev PLog)) :
    EnvInv (ReceivingOf answer rest l0) (fun s _ => (0, s)) recv resp.getTime resp.pHeaderParsingCallback where
  stored := fun s len => (hS.delivers s len).1
  send := fun s l d _ h => receivingOf_snoc h (by simp) rfl
  recv := by
    rintro s l off len ⟨evs, rfl, g⟩
    refine ⟨evs ++ [.recv off len (recv s len).1 ((recv s len).2.1.take (recv s len).1.toNat)], by simp, ?_⟩
    rw [received_append]
    simp only [received, List.append_nil]
    rw [List.append_assoc, (hS.delivers s len).2]; exact g
  zero := fun _ s l h => receivingOf_snoc h (by simp) rfl
  user := fun f hf s l h => receivingOf_snoc h (by simp) (hS.clock f hf s).2
  header := fun c hc s l a f b v code h => receivingOf_snoc h (by simp) (hS.header c hc s a f b v code).2
  call := fun s l off data h => receivingOf_snoc h (by simp) rfl
  event := fun s l e h => receivingOf_snoc h (by simp) rfl

/-- **Receiving a beginning of a response, with any outcome**: C68 and C72 together. -/
theorem receive_part {w w' : World PLog σ} {head : Bool} {r : Response} (hp : RecvPre true httpParser cfg T recv resp rh b rb w.mem) (ok : r.Ok head)
    (hreq : ReqIs head (headerBlock w.mem rh)) (hflag : ¬ headersOnly resp.respOptionFlags) {fuel : Nat} {st : Status} {resp' : Resp σ}
    {evs : List (Ev PLog)}
    (e : HTTPClient_ReceiveAndParseHttpResponse httpParser cfg fuel (some T) (some resp) (some rh) w = (.ok (st, resp'), w'))
    (hl : w'.log = w.log ++ evs) (hpre : received evs <+: r.bytes) :
    (st = .success ∧ received evs = r.bytes ∧ Got cfg r resp.pHeaderParsingCallback.isSome evs w'.mem resp') ∨
    (st ≠ .success ∧ received evs ≠ r.bytes ∧
      ((received evs = [] ∧ resp' = resp) ∨ GotPart cfg r resp.pHeaderParsingCallback.isSome evs (received evs) w'.mem resp')) := by
  by_cases hst : st = .networkError
  · subst hst
    obtain ⟨_, _, evs1, e1, l1, h⟩ := C72_receive hp ok hreq fuel
    rw [e] at e1; cases e1
    obtain rfl : evs = evs1 := List.append_cancel_left (hl.symm.trans l1)
    obtain ⟨h1, _, h2⟩ := h _ rfl hpre
    exact .inr ⟨by simp, h1, h2⟩
  · obtain ⟨_, _, t0, evs1, e1, l1, h⟩ := C68_incomplete_receive hp ok hreq hflag fuel
    rw [e] at e1; cases e1
    obtain rfl : evs = .time t0 :: evs1 := List.append_cancel_left (hl.symm.trans l1)
    have hrt : received (.time t0 :: evs1) = received evs1 := rfl
    have hrp : reported (.time t0 :: evs1) = reported evs1 := rfl
    have hdel : Delivers r.bytes evs1 := by
      intro pre off len ret data post he
      refine ⟨?_, ?_⟩
      · refine Int.not_lt.mp fun hneg => hst ?_
        obtain ⟨_, _, evs2, e2, l2, h31, _⟩ := C31_receive_error hp fuel
        rw [e] at e2; cases e2
        obtain rfl : Ev.time t0 :: evs1 = evs2 := List.append_cancel_left (hl.symm.trans l2)
        obtain ⟨_, resp2, h2⟩ := h31 (.time t0 :: pre) off len ret data post (by rw [he]; rfl) hneg
        cases h2; rfl
      · rw [hrt, he, received_append] at hpre
        refine List.IsPrefix.trans ?_ hpre
        exact ⟨received post, by simp [received]⟩
    rcases h hdel st resp' rfl with ⟨rfl, h2, h3⟩ | ⟨h1, h2, h3⟩
    · exact .inl ⟨rfl, h2, { h3 with reported := by rw [hrp]; exact h3.reported }⟩
    · refine .inr ⟨?_, h1, .inr ⟨h2.1, by rw [hrp]; exact h2.2, by rw [hrp]; exact h2.3, h2.4, h2.5, h2.6, fun h => { h2.7 h with
        reported := by rw [hrp]; exact (h2.7 h).reported }⟩⟩
      rcases h3 with ⟨rfl, _⟩ | ⟨_, rfl, _⟩
      · simp
      · split <;> simp

/-- **C90, one exchange.** With an unreliable server and network, whatever HTTPClient_Send returns: either nothing was received, and the response object is as it
was passed (a missing clock replaced); or the whole request was sent, the server answered it, and everything reported is part of that answer. -/
theorem C90_exchange {w : World PLog σ} {head : Bool} (hp : CallPre true httpParser cfg T send recv rh rb body n resp b w.mem)
    (hreq : ReqIs head (headerBlock w.mem rh)) (hflag : ¬ headersOnly resp.respOptionFlags) (hS : FlakyServer serves got rest send recv resp)
    (hgot : got w.env = []) (hserves : ∀ x, serves (wireRequest w.mem rh body n flags) x → ∃ r : Response, r.Ok head ∧ x = r.bytes) (fuel : Nat) :
    ∃ res w' evs, HTTPClient_Send httpParser cfg fuel (some T) (some rh) body n (some resp) flags w = (res, w') ∧ w'.log = w.log ++ evs ∧
      ∀ st rh' resp', res = .ok (st, rh', some resp') →
        (received evs = [] ∧ st ≠ .success ∧ resp' = withClock resp) ∨
        ∃ x, serves (wireRequest w.mem rh body n flags) x ∧ accepted evs = wireRequest w.mem rh body n flags ∧ ∀ r : Response, r.Ok head → x = r.bytes →
          (st = .success ∧ received evs = r.bytes ∧ Got cfg r resp.pHeaderParsingCallback.isSome evs w'.mem resp') ∨
          (st ≠ .success ∧ received evs ≠ r.bytes ∧ GotPart cfg r resp.pHeaderParsingCallback.isSome evs (received evs) w'.mem resp') := by
  have hblk : 16 ≤ (headerBlock w.mem rh).length := by
    have h1 := hp.reqLen; have h2 := hp.reqRoom; have h3 := hp.reqLe
    unfold headerBlock; rw [hp.reqBuf]; simp only [List.length_take]; omega
  have hS' : FlakyServer serves got rest send recv (withClock resp) :=
    { hS with
      clock := by
        intro f hf
        refine hS.clock f ?_
        unfold withClock at hf
        cases hc : resp.getTime <;> rw [hc] at hf <;> first | exact hf | cases hf
      header := hS.header }
  have hwr : wireRequest w.mem rh body n flags ≠ [] := by
    intro h
    have h1 := congrArg List.length (wireHeaders_take hblk n flags.toNat)
    have h2 : wireHeaders (headerBlock w.mem rh) n flags.toNat = [] := by
      unfold wireRequest at h; exact (List.append_eq_nil_iff.mp h).1
    rw [h2] at h1
    simp at h1
    omega
  have hk := (sendRequest_keeps (sendingTo_inv hS' w.log) cfg hp.hasSend rh body n flags fuel w
    ⟨[], by simp, by simpa [accepted] using hgot, fun h => absurd rfl h⟩).1
  rw [send_eq hp fuel]
  simp only [M.bind_apply]
  rcases sendRequest_spec (flags := flags) (withClock_ne resp) hp fuel with ⟨h1, h2⟩ | ⟨h1, q, s', m', rh', evs1, e, hfr, hb, hbl, hle, hB, hlen, h2⟩
  · rw [h2]
    refine ⟨_, _, [], rfl, by simp, ?_⟩
    rintro st rh' resp' h
    cases h
    exact .inl ⟨rfl, by simp, rfl⟩
  rw [e] at hk ⊢
  rcases h2 with ⟨rfl, hph⟩ | ⟨rfl | rfl, hph⟩
  · obtain ⟨evs1', hl1, k1, k2⟩ := hk
    obtain rfl : evs1 = evs1' := List.append_cancel_left hl1
    obtain ⟨s1, s2, _, s4⟩ := sending_kinds hph.kinds
    have hacc := hph.all_ rfl
    have hr := recvPre_of hp hfr hb hbl hle hB hlen
    have hx := k2 (by rw [hacc]; exact hwr)
    rw [hacc] at hx
    obtain ⟨res, w', evs, e', hl', hns, _, _⟩ := receive_no_send (w := ⟨s', m', w.log ++ evs1⟩) hr fuel
    have hk2 := (receive_keeps httpParser cfg hr.hasRecv (receivingOf_inv hS' (rest s') (w.log ++ evs1)) rh' fuel ⟨s', m', w.log ++ evs1⟩
      ⟨[], by simp, by simp [received]⟩).1
    rw [e'] at hk2
    obtain ⟨evs', hl2, hrest⟩ := hk2
    obtain rfl : evs = evs' := List.append_cancel_left (hl'.symm.trans hl2)
    simp only [if_true, M.bind_apply, e']
    refine ⟨(match res with | .ok a => .ok (a.1, some rh', some a.2) | .fault f => .fault f | .more => .more), w', evs1 ++ evs, ?_, ?_, ?_⟩
    · cases res <;> rfl
    · rw [hl']; simp
    · intro st rh'' resp' hres
      have hrec : received (evs1 ++ evs) = received evs := by rw [received_append, s4]; rfl
      have hrep : reported (evs1 ++ evs) = reported evs := by rw [reported_append, s2]; rfl
      have hac : accepted (evs1 ++ evs) = wireRequest w.mem rh body n flags := by
        rw [accepted_append', (sends_nil hns).2, List.append_nil]; exact hacc
      cases res with
      | fault f => cases hres
      | more => cases hres
      | ok a =>
        obtain ⟨st1, resp1⟩ := a
        cases hres
        obtain ⟨r0, ok0, hr0⟩ := hserves _ hx
        have key : ∀ r : Response, r.Ok head → rest s' = r.bytes → _ := fun r ok hxr =>
          receive_part (w := ⟨s', m', w.log ++ evs1⟩) (r := r) (head := head) hr ok
            (by dsimp only; rw [hB]; exact reqIs_wire hblk _ _ hreq) hflag e' hl' (by rw [← hxr, ← hrest]; exact List.prefix_append _ _)
        rw [hrec]
        rcases key r0 ok0 hr0 with ⟨q1, q2, q3⟩ | ⟨q1, q2, ⟨q3, q4⟩ | q3⟩
        · refine .inr ⟨_, hx, hac, fun r ok hxr => ?_⟩
          rcases key r ok hxr with ⟨p1, p2, p3⟩ | ⟨p1, _⟩
          · exact .inl ⟨p1, p2, { p3 with reported := by rw [hrep]; exact p3.reported }⟩
          · exact absurd q1 p1
        · exact .inl ⟨q3, q1, q4⟩
        · by_cases hem : received evs = [] ∧ resp1 = withClock resp
          · exact .inl ⟨hem.1, q1, hem.2⟩
          refine .inr ⟨_, hx, hac, fun r ok hxr => ?_⟩
          rcases key r ok hxr with ⟨p1, _⟩ | ⟨p1, p2, p3⟩
          · exact absurd p1 q1
          · refine .inr ⟨p1, p2, ?_⟩
            rcases p3 with p3 | p3
            · exact absurd p3 hem
            · exact ⟨p3.1, by rw [hrep]; exact p3.2, by rw [hrep]; exact p3.3, p3.4, p3.5, p3.6, fun h => { p3.7 h with
                reported := by rw [hrep]; exact (p3.7 h).reported }⟩
  · refine ⟨_, _, evs1, rfl, rfl, ?_⟩
    intro st rh'' resp' hres
    cases hres
    exact .inl ⟨(sending_kinds hph.kinds).2.2.2, by simp, rfl⟩
  · refine ⟨_, _, evs1, rfl, rfl, ?_⟩
    intro st rh'' resp' hres
    cases hres

/-- The requests of the loop: what building leaves, what goes over the wire, and what the server reads. -/
theorem range_request {m m1 : Mem} {path host : Bytes} {fl sendFl : UInt32} {first last : Nat}
    (hset : Setup true httpParser cfg T send recv h rb none 0 resp b m) (hpa : path ≠ []) (hclp : CleanValue path)
    (hsize : h.bufferLen + 38 < 2 ^ cfg.sizeBits)
    (hsize' : h.bufferLen + (requestBlock (requestLine (ascii "GET") path) (documentedHeaders cfg.userAgent host fl.toNat)).length < 2 ^ cfg.sizeBits)
    (hmax : first ≤ 2147483647 ∧ last ≤ 2147483647)
    (e : runBuildOps cfg m h [.init (some ⟨some (ascii "GET"), some path, some host, fl⟩), .addRange first last] = .ok ([.success, .success], rh, m1)) :
    CallPre true httpParser cfg T send recv rh rb none 0 resp b m1 ∧ rh.bufferLen = h.bufferLen ∧ (∀ i, (m1 i).length = (m i).length) ∧
      ReqIs false (headerBlock m1 rh) ∧
      ∃ hs, readRequest (wireRequest m1 rh none 0 sendFl) = some (ascii "GET " ++ path ++ ascii " HTTP/1.1", hs, []) ∧
        hs.filter (·.1 == ascii "Range") = [(ascii "Range", rangeText (.fromTo first last))] := by
  have hep : effectivePath (some path) = path := by
    unfold effectivePath
    cases path with
    | nil => exact absurd rfl hpa
    | cons x t => rfl
  have hops : ∀ op ∈ [BuildOp.init (some ⟨some (ascii "GET"), some path, some host, fl⟩), .addRange first last], OpOk cfg h.bufferLen op := by
    intro op hop
    simp only [List.mem_cons, List.not_mem_nil, or_false] at hop
    rcases hop with rfl | rfl
    · refine ⟨?_, trivial⟩
      show h.bufferLen + (requestBlock (requestLine (ascii "GET") (effectivePath (some path))) (documentedHeaders cfg.userAgent host fl.toNat)).length < _
      rw [hep]; exact hsize'
    · exact ⟨hsize, ⟨by omega, by omega⟩, by omega, by omega⟩
  have hrr : requestedRange (first : Int) (last : Int) = .fromTo first last := by
    unfold requestedRange
    rw [if_neg (by omega), if_neg (by omega)]
    rfl
  have habs : Spec.absRun cfg.userAgent none
      ([BuildOp.init (some ⟨some (ascii "GET"), some path, some host, fl⟩), .addRange first last].zip [.success, .success]) =
      some (requestLine (ascii "GET") path,
        documentedHeaders cfg.userAgent host fl.toNat ++ [(ascii "Range", rangeText (.fromTo first last))]) := by
    simp only [List.zip_cons_cons, List.zip_nil_right, Spec.absRun, Spec.absStep, Option.map_some, hep, hrr]
  obtain ⟨hp, hbl1, hB, hne, hcl, hbd⟩ := built hset hops e habs
  have hal : autoLength 0 sendFl.toNat = [] := by unfold autoLength addsContentLength; simp
  have hw := wireHeaders_block (line := requestLine (ascii "GET") path) hne 0 sendFl.toNat
  have hread := wire_reads (me := ascii "GET") (path := path) (show CleanValue (ascii "GET") by decide) hclp hcl [] 0 sendFl.toNat
  have e4 : ascii "GET" ++ ascii " " = ascii "GET " := by decide
  rw [e4, hal, List.append_nil, List.append_nil] at hread
  rw [hal, List.append_nil] at hw
  refine ⟨hp, hbl1, ?_, ?_, _, ?_, one_range cfg.userAgent host _ fl.toNat⟩
  · intro i
    obtain ⟨_, _, _, e7, _, _, _, _, hfr, _⟩ := runBuildOps_spec hset.agent _ m h rb none hset.reqBuf hset.reqRoom hops
    rw [e] at e7
    cases e7
    by_cases hi : i = rb
    · subst hi; exact hfr.2.1
    · rw [hfr.1 i hi]
  · show ¬ ascii "HEAD" <+: headerBlock m1 rh
    rw [hB]
    intro hpre
    unfold requestBlock requestLine at hpre
    have := List.prefix_iff_eq_take.mp hpre
    have h2 := congrArg (fun x : Bytes => x[0]?) this
    revert h2
    simp [ascii]
  · unfold wireRequest
    rw [hB, hw]
    show readRequest (_ ++ []) = _
    rw [List.append_nil]
    exact hread

/-- **C90.** An application downloads a file piece by piece from an unreliable server over an unreliable network, clears the response object before each attempt
and, whatever HTTPClient_Send returns, appends the body reported if the status code reported is 206. Whatever fails, and when – sending or receiving, in the
middle of the header section or of the body, a timeout, a response too large for the buffer, another response than the one asked for, an answer shorter than
what was asked for – no call faults, and what the application has after any number of attempts is a beginning of the file: nothing is lost, duplicated or
altered. (`.more`: a call did not return within `fuel` steps.) -/
theorem C90_resume {m : Mem} {path host file : Bytes} {fl sendFl : UInt32} (hset : Setup true httpParser cfg T send recv h rb none 0 resp b m)
    (hS : FlakyServer serves got rest send recv resp) (hR : TrueRanges serves path file) (hflag : ¬ headersOnly resp.respOptionFlags)
    (hpa : path ≠ []) (hclp : CleanValue path) (hsize : h.bufferLen + 38 < 2 ^ cfg.sizeBits)
    (hsize' : h.bufferLen + (requestBlock (requestLine (ascii "GET") path) (documentedHeaders cfg.userAgent host fl.toNat)).length < 2 ^ cfg.sizeBits)
    (hfile : file.length ≤ 2147483648) (attempts : List (Nat × σ)) (hgot : ∀ a ∈ attempts, got a.2 = []) (l : List (Ev PLog)) (fuel : Nat) :
    resume httpParser cfg fuel T path host fl sendFl true file.length attempts [] h resp m l = .more ∨
    ∃ acc, resume httpParser cfg fuel T path host fl sendFl true file.length attempts [] h resp m l = .ok acc ∧ acc <+: file := by
  have key : ∀ (as : List (Nat × σ)) (acc : Bytes) (h' : ReqHeaders) (resp' : Resp σ) (m' : Mem) (l' : List (Ev PLog)), (∀ a ∈ as, got a.2 = []) →
      acc <+: file → h'.bufferLen = h.bufferLen →
      Setup true httpParser cfg T send recv h' rb none 0 resp' b m' → FlakyServer serves got rest send recv resp' → ¬ headersOnly resp'.respOptionFlags →
      resume httpParser cfg fuel T path host fl sendFl true file.length as acc h' resp' m' l' = .more ∨
      ∃ acc', resume httpParser cfg fuel T path host fl sendFl true file.length as acc h' resp' m' l' = .ok acc' ∧ acc' <+: file := by
    intro as
    induction as with
    | nil => intro acc h' resp' m' l' _ hacc _ _ _ _; exact .inr ⟨acc, rfl, hacc⟩
    | cons a as ih =>
      obtain ⟨k, s⟩ := a
      intro acc h' resp' m' l' hgot hacc hbl hset hS hflag
      unfold resume
      by_cases hc : acc.length < file.length ∧ 0 < k
      case neg => rw [if_neg hc]; exact .inr ⟨acc, rfl, hacc⟩
      rw [if_pos hc]
      obtain ⟨hlt, hk⟩ := hc
      generalize hlast : min (acc.length + k) file.length - 1 = last
      have hb1 : acc.length ≤ last := by omega
      have hb2 : last < file.length := by omega
      have hset' : Setup true httpParser cfg T send recv h' rb none 0 (cleared resp') b m' := { hset with }
      have hS' : FlakyServer serves got rest send recv (cleared resp') := { hS with clock := hS.clock, header := hS.header }
      have hep : effectivePath (some path) = path := by
        unfold effectivePath
        cases path with
        | nil => exact absurd rfl hpa
        | cons x t => rfl
      obtain ⟨sts, rh, m1, e, hsl, _⟩ := runBuildOps_spec hset.agent
        [.init (some ⟨some (ascii "GET"), some path, some host, fl⟩), .addRange acc.length last] m' h' rb none hset.reqBuf hset.reqRoom (by
          intro op hop
          simp only [List.mem_cons, List.not_mem_nil, or_false] at hop
          rcases hop with rfl | rfl
          · refine ⟨?_, trivial⟩
            show h'.bufferLen + (requestBlock (requestLine (ascii "GET") (effectivePath (some path)))
              (documentedHeaders cfg.userAgent host fl.toNat)).length < _
            rw [hep, hbl]; exact hsize'
          · exact ⟨by rw [hbl]; exact hsize, ⟨by omega, by omega⟩, by omega, by omega⟩)
      rw [e]
      by_cases hsts : sts = [.success, .success]
      case neg =>
        refine .inr ⟨acc, ?_, hacc⟩
        split
        · rename_i h; cases h; exact absurd rfl hsts
        · rfl
        · rename_i h; cases h
        · rename_i h; cases h
      subst hsts
      dsimp only
      simp only [if_true]
      obtain ⟨hp, hbl1, hlen1, hreq, hs, hread, hone⟩ := range_request (sendFl := sendFl) hset' hpa hclp (by rw [hbl]; exact hsize) (by rw [hbl]; exact hsize')
        ⟨by omega, by omega⟩ e
      have hserves : ∀ x, serves (wireRequest m1 rh none 0 sendFl) x → ∃ r : Response, r.Ok false ∧ x = r.bytes ∧
          (r.code = 206 → r.content.data <+: (file.drop acc.length).take (last + 1 - acc.length)) := fun x hx =>
        hR _ x hs _ acc.length last hx hread hone (readRange_rangeText _) hb1 hb2
      obtain ⟨res, w', evs, e5, hl5, h5⟩ := C90_exchange (w := ⟨s, m1, l'⟩) (flags := sendFl) hp hreq hflag hS' (hgot (k, s) (by simp))
        (fun x hx => (hserves x hx).imp fun r h => ⟨h.1, h.2.1⟩) fuel
      rw [e5]
      rcases res with ⟨st, orh, oresp⟩ | f | _
      · obtain ⟨rh', resp2, rfl, rfl, hsu2, hb2', hbl2, _, _, _⟩ := send_leaves (w := ⟨s, m1, l'⟩) hp e5
        dsimp only
        have hlen : ∀ i, (w'.mem i).length = (m' i).length := by
          intro i
          obtain ⟨_, w2, e6, _, _, h3, _⟩ := C60_safe (w := ⟨s, m1, l'⟩) (flags := sendFl) hp fuel
          rw [e5] at e6
          cases e6
          rw [h3 i]; exact hlen1 i
        obtain ⟨u1, u2, u3, u4, u5⟩ := hsu2
        refine ih _ rh' resp2 w'.mem w'.log (fun a ha => hgot a (by simp [ha])) ?_ (by rw [hbl2, hbl1, hbl]) ?_ ?_ (by rw [u5]; exact hflag)
        · by_cases h206 : resp2.statusCode = 206
          case neg => rw [if_neg h206]; exact hacc
          rw [if_pos h206]
          have hjoin : ∀ d, d <+: (file.drop acc.length).take (last + 1 - acc.length) → acc ++ d <+: file := by
            rintro d ⟨t, ht⟩
            obtain ⟨u, rfl⟩ := hacc
            rw [List.drop_left] at ht
            obtain ⟨v, hv⟩ := List.take_prefix (last + 1 - acc.length) u
            exact ⟨t ++ v, by rw [List.append_assoc, ← List.append_assoc d, ht, hv]⟩
          rcases h5 st _ resp2 rfl with ⟨_, _, h7⟩ | ⟨x, hx, _, h7⟩
          · rw [h7] at h206; exact absurd h206 (by show ¬ (0 = 206); decide)
          · obtain ⟨r, ok, hxr, hd⟩ := hserves x hx
            rcases h7 r ok hxr with ⟨_, _, g⟩ | ⟨_, _, g⟩
            · rw [g.body]; exact hjoin _ (hd (by rw [← g.statusCode]; exact h206))
            · refine hjoin _ (g.body.trans (hd ?_))
              rcases g.statusCode with h | h
              · rw [h] at h206; cases h206
              · rw [← h]; exact h206
        · exact
          { hset with
            reqBuf := hb2'
            reqRoom := by rw [hbl2, hbl1, hlen]; exact hset.reqRoom
            reqSize := by rw [hbl2, hbl1]; exact hset.reqSize
            buf := u1.trans hset.buf
            pos := by rw [u2]; exact hset.pos
            room := by rw [u2, hlen]; exact hset.room
            size := by rw [u2]; exact hset.size
            callback := by rw [u3]; exact hset.callback
            bodyRoom := (fun bb h => nomatch h) }
        · exact
          { hS with
            clock := fun f hf => hS.clock f (by
              rw [u4] at hf
              unfold withClock cleared at hf
              dsimp only at hf
              cases hg : resp'.getTime <;> rw [hg] at hf <;> first | exact hf | cases hf)
            header := fun c hc => hS.header c (by rw [u3] at hc; exact hc) }
      · obtain ⟨_, w2, e6, hnf, _⟩ := C60_safe (w := ⟨s, m1, l'⟩) (flags := sendFl) hp fuel
        rw [e5] at e6
        cases e6
        exact absurd rfl (hnf f)
      · exact .inl rfl
  exact key attempts [] h resp m l hgot List.nil_prefix rfl hset hS hflag

/-! ### Non-vacuity: an unreliable environment, for any file -/

/-- Environment: milliseconds; what the server got; what is to be delivered; how many send and how many receive calls will not fail. -/
abbrev FlakyEnv := Nat × Bytes × Bytes × Nat × Nat

/-- Accepts at most 7 bytes; fails when the number of send calls is used up. -/
def flakySend (file : Bytes) : FlakyEnv → Bytes → Int × FlakyEnv := fun s d =>
  if s.2.2.2.1 = 0 then (-1, s.1 + 1, s.2.1, serveFile file s.2.1, 0, s.2.2.2.2)
  else (((min 7 d.length : Nat) : Int), s.1 + 1, s.2.1 ++ d.take 7, serveFile file (s.2.1 ++ d.take 7), s.2.2.2.1 - 1, s.2.2.2.2)
/-- Delivers at most 5 bytes; fails when the number of receive calls is used up, having written a byte into the buffer. -/
def flakyRecv : FlakyEnv → Nat → Int × Bytes × FlakyEnv := fun s len =>
  if s.2.2.2.2 = 0 then (-2, [65].take len, s)
  else (((min (min 5 len) s.2.2.1.length : Nat) : Int), s.2.2.1.take (min 5 len), s.1 + 1, s.2.1, s.2.2.1.drop (min 5 len), s.2.2.2.1, s.2.2.2.2 - 1)
/-- A response object. -/
def flakyResp (q n : Nat) : Resp FlakyEnv :=
  ⟨some q, n, some (.user fun s _ _ _ _ _ => s), .user fun s => (UInt32.ofNat s.1, s), some 3, 4, some 5, 6, 999, 77, 8, 1, 0, 3⟩

theorem flakyServer (file : Bytes) (q n : Nat) :
    FlakyServer (fun q x => x = serveFile file q) (fun s => s.2.1) (fun s => s.2.2.1) (flakySend file) flakyRecv (flakyResp q n) where
  takes := by
    intro s d
    unfold flakySend
    split
    · simp
    · dsimp only
      congr 1
      rcases Nat.le_total 7 d.length with h | h
      · rw [Nat.min_eq_left h]; rfl
      · rw [Nat.min_eq_right h, List.take_of_length_le h, List.take_of_length_le (by omega)]
  answers := by
    intro s d
    unfold flakySend
    split <;> rfl
  delivers := by
    intro s len
    unfold flakyRecv
    split
    · exact ⟨Nat.zero_le _, rfl⟩
    · dsimp only
      refine ⟨by rw [List.length_take]; omega, ?_⟩
      rw [show ((min (min 5 len) s.2.2.1.length : Nat) : Int).toNat = (s.2.2.1.take (min 5 len)).length by rw [List.length_take]; omega,
        List.take_length, List.take_append_drop]
  clock := by intro f hf s; cases hf; exact ⟨rfl, rfl⟩
  header := by intro c hc s a f b v code; cases hc; exact ⟨rfl, rfl⟩

theorem serveFile_true (path file : Bytes) (hf : file.length ≤ 2147483648) : TrueRanges (fun q x => x = serveFile file q) path file := by
  intro q x hs v first last hx hq hh hv h1 h2
  refine ⟨partAnswer ((file.drop first).take (last + 1 - first)), partAnswer_ok _ (by rw [List.length_take, List.length_drop]; omega), ?_,
    fun _ => List.prefix_refl _⟩
  rw [hx]
  unfold serveFile
  rw [hq]; dsimp only
  rw [hh]; dsimp only
  rw [hv]

/-- Any file, any number of attempts of any size, any number of calls that do not fail in each: a beginning of the file. -/
theorem C90_any_file (file : Bytes) (hfile : file.length ≤ 2147483648) (attempts : List (Nat × FlakyEnv)) (hgot : ∀ a ∈ attempts, a.2.2.1 = [])
    (q n : Nat) (hq : q = 0 ∨ q = 1) (hn : 0 < n ∧ n ≤ 200) (fuel : Nat) :
    resume httpParser exCfg fuel ⟨some (flakySend file), some flakyRecv⟩ (ascii "/firmware.bin") (ascii "example.com") 1 0 true file.length attempts []
      eHdr (flakyResp q n) xMem [] = .more ∨
    ∃ acc, resume httpParser exCfg fuel ⟨some (flakySend file), some flakyRecv⟩ (ascii "/firmware.bin") (ascii "example.com") 1 0 true file.length attempts []
      eHdr (flakyResp q n) xMem [] = .ok acc ∧ acc <+: file := by
  have hx := peerCallPre [] [] q hq
  have hset : Setup true httpParser exCfg ⟨some (flakySend file), some flakyRecv⟩ (flakySend file) flakyRecv eHdr 0 none 0 (flakyResp q n) q xMem :=
    { parser := hx.parser, hasSend := rfl, hasRecv := rfl
      sendOk := (fun s d => by unfold flakySend; split <;> dsimp only <;> omega)
      recvOk := (fun s len => by
        unfold flakyRecv
        split
        · exact ⟨by dsimp only; omega, by dsimp only; rw [List.length_take]; omega⟩
        · exact ⟨by dsimp only; omega, by dsimp only; rw [List.length_take]; omega⟩)
      agent := by decide, reqBuf := rfl, reqRoom := by decide +kernel, reqSize := by decide
      buf := rfl, pos := hn.1, room := (Nat.le_trans hn.2 hx.room), size := (Nat.lt_of_le_of_lt hn.2 (by decide))
      callback := (fun h => nomatch h), bodyNone := fun _ => rfl
      bodyRoom := (fun bb h => nomatch h), bodyMax := by decide }
  exact C90_resume hset (flakyServer file q n) (serveFile_true (ascii "/firmware.bin") file hfile)
    (show ¬ ((0 : UInt32).toNat % 2 = 1) by decide) (by decide) (by decide) (by decide) (by decide +kernel) hfile attempts hgot [] fuel

/-- The loop with a file of 20 bytes and a response buffer of 78 bytes. -/
def exResume (clear : Bool) (attempts : List (Nat × FlakyEnv)) : Run Bytes :=
  resume httpParser exCfg 300 ⟨some (flakySend (ascii "0123456789abcdefghij")), some flakyRecv⟩ (ascii "/firmware.bin") (ascii "example.com") 1 0 clear 20
    attempts [] eHdr (flakyResp 1 78) xMem []

/-- Five attempts: receiving fails in the body; sending fails; receiving fails in the status line; the response does not fit in the buffer; the rest. -/
example : exResume true [(9, (0, [], [], 100, 15)), (5, (0, [], [], 3, 100)), (5, (0, [], [], 100, 2)), (20, (0, [], [], 100, 100)),
    (20, (0, [], [], 100, 100))] = .ok (ascii "0123456789abcdefghij") := by decide +kernel

/-- After four of them. -/
example : (match exResume true [(9, (0, [], [], 100, 15)), (5, (0, [], [], 3, 100)), (5, (0, [], [], 100, 2)), (20, (0, [], [], 100, 100))] with
    | .ok acc => decide (5 < acc.length ∧ acc.length < 20)
    | _ => false) = true := by decide +kernel

/-! ### C91: what is reported after a call that failed -/

/-- **C91, partial** (missing, because false: the same for an object that still holds what an earlier call reported). When the response object passed reports
nothing, then whatever HTTPClient_Send returns, the status code and body it reports are those of a beginning of the server's answer to this request,
or there are none. -/
theorem C91_reported_partial {w : World PLog σ} {head : Bool} (hp : CallPre true httpParser cfg T send recv rh rb body n resp b w.mem)
    (hreq : ReqIs head (headerBlock w.mem rh)) (hflag : ¬ headersOnly resp.respOptionFlags) (hS : FlakyServer serves got rest send recv resp)
    (hgot : got w.env = []) (hserves : ∀ x, serves (wireRequest w.mem rh body n flags) x → ∃ r : Response, r.Ok head ∧ x = r.bytes) (fuel : Nat)
    (hc1 : resp.statusCode = 0) (hc2 : resp.pBody = none) {st : Status} {orh : Option ReqHeaders} {resp' : Resp σ} {w' : World PLog σ}
    (e : HTTPClient_Send httpParser cfg fuel (some T) (some rh) body n (some resp) flags w = (.ok (st, orh, some resp'), w')) :
    (st ≠ .success ∧ resp'.statusCode = 0 ∧ bodyBytes w'.mem resp' = []) ∨
    ∃ r : Response, r.Ok head ∧ serves (wireRequest w.mem rh body n flags) r.bytes ∧ (resp'.statusCode = 0 ∨ resp'.statusCode = r.code) ∧
      bodyBytes w'.mem resp' <+: r.content.data ∧ (st = .success → resp'.statusCode = r.code ∧ bodyBytes w'.mem resp' = r.content.data) := by
  obtain ⟨res, w1, evs, e1, _, h⟩ := C90_exchange (flags := flags) hp hreq hflag hS hgot hserves fuel
  rw [e] at e1
  cases e1
  rcases h st orh resp' rfl with ⟨_, h2, rfl⟩ | ⟨x, hx, _, h2⟩
  · refine .inl ⟨h2, hc1, ?_⟩
    unfold bodyBytes withClock
    dsimp only
    rw [hc2]
    cases resp.pBuffer <;> rfl
  · obtain ⟨r, ok, rfl⟩ := hserves x hx
    refine .inr ⟨r, ok, hx, ?_⟩
    rcases h2 r ok rfl with ⟨_, _, g⟩ | ⟨h3, _, g⟩
    · exact ⟨.inr g.statusCode, by rw [g.body]; exact List.prefix_refl _, fun _ => ⟨g.statusCode, g.body⟩⟩
    · exact ⟨g.statusCode, g.body, fun h => absurd h h3⟩

/-- **C91 is false**: the same loop without clearing the response object. The first attempt succeeds; in the second one sending fails, HTTPClient_Send returns
HTTPNetworkError, and the response object still reports status 206 and the body of the first response: it is taken for what was received. The same when
receiving fails before any data. -/
theorem C91_refuted :
    exResume false [(9, (0, [], [], 100, 100)), (5, (0, [], [], 3, 100))] = .ok (ascii "012345678012345678") ∧
    exResume false [(9, (0, [], [], 100, 100)), (5, (0, [], [], 100, 0))] = .ok (ascii "012345678012345678") ∧
    ¬ ascii "012345678012345678" <+: ascii "0123456789abcdefghij" := by
  refine ⟨by decide +kernel, ?_, by decide +kernel⟩
  decide +kernel

end CoreHttp.Props

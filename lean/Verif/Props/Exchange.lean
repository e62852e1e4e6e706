import Verif.Spec.Peer
import Verif.Lemmas.Exchange
import Verif.Props.RoundTrip

/-!
# Property C58: round trip with a cooperative peer

`Peer` (Verif/Spec/Peer.lean) describes the peer; `Response`, `Response.Ok` (Verif/Spec/Wire.lean) its answer; `Got` what the application gets.
-/

namespace CoreHttp.Props
open CoreHttp Spec Ref Machine
variable {σ : Type} {cfg : Cfg} {T : Transport σ} {send : σ → Bytes → Int × σ} {recv : σ → Nat → Int × Bytes × σ}
  {resp : Resp σ} {rh : ReqHeaders} {b rb : Nat} {body : Option Nat} {n : Nat} {flags : UInt32} {request answer : Bytes} {got rest : σ → Bytes}

/-- While sending. -/
def Sending (request answer : Bytes) (got rest : σ → Bytes) (l0 : List (Ev PLog)) (s : σ) (l : List (Ev PLog)) : Prop :=
  ∃ evs, l = l0 ++ evs ∧ got s = accepted evs ∧ (accepted evs = request → rest s = answer)

theorem sending_inv (hP : Peer request answer got rest send recv resp) (l0 : List (Ev PLog)) :
    EnvInv (Sending request answer got rest l0) send (fun s _ => (0, [], s)) resp.getTime resp.pHeaderParsingCallback where
  stored := fun _ _ => Nat.le_refl _
  send := by
    rintro s l d hd ⟨evs, rfl, h1, h2⟩
    have ha : accepted (evs ++ [.send d (send s d).1]) = accepted evs ++ d.take (send s d).1.toNat := by
      rw [accepted_append']; simp [accepted]
    refine ⟨evs ++ [.send d (send s d).1], by simp, ?_, ?_⟩
    · rw [ha, hP.takes, h1]
    · rw [ha]; intro h; exact hP.answers s d (by rw [hP.takes, h1]; exact h)
  recv := by
    rintro s l off len ⟨evs, rfl, h1, h2⟩
    have ha : accepted (evs ++ [.recv off len 0 []]) = accepted evs := by rw [accepted_append']; simp [accepted]
    exact ⟨evs ++ [.recv off len 0 []], by simp, by rw [ha]; exact h1, by rw [ha]; exact h2⟩
  zero := by
    rintro _ s l ⟨evs, rfl, h1, h2⟩
    have ha : accepted (evs ++ [.time 0]) = accepted evs := by rw [accepted_append']; simp [accepted]
    exact ⟨evs ++ [.time 0], by simp, by rw [ha]; exact h1, by rw [ha]; exact h2⟩
  user := by
    rintro f hf s l ⟨evs, rfl, h1, h2⟩
    have ha : accepted (evs ++ [.time (f s).1]) = accepted evs := by rw [accepted_append']; simp [accepted]
    refine ⟨evs ++ [.time (f s).1], by simp, ?_, ?_⟩
    · rw [ha, (hP.clock f hf s).1]; exact h1
    · rw [ha, (hP.clock f hf s).2]; exact h2
  header := by
    rintro c hc s l a f b v code ⟨evs, rfl, h1, h2⟩
    have ha : accepted (evs ++ [.header a f b v code]) = accepted evs := by rw [accepted_append']; simp [accepted]
    refine ⟨evs ++ [.header a f b v code], by simp, ?_, ?_⟩
    · rw [ha, (hP.header c hc s a f b v code).1]; exact h1
    · rw [ha, (hP.header c hc s a f b v code).2]; exact h2
  call := by
    rintro s l off data ⟨evs, rfl, h1, h2⟩
    have ha : accepted (evs ++ [.parserCall off data]) = accepted evs := by rw [accepted_append']; simp [accepted]
    exact ⟨evs ++ [.parserCall off data], by simp, by rw [ha]; exact h1, by rw [ha]; exact h2⟩
  event := by
    rintro s l e ⟨evs, rfl, h1, h2⟩
    have ha : accepted (evs ++ [.parserEvent e]) = accepted evs := by rw [accepted_append']; simp [accepted]
    exact ⟨evs ++ [.parserEvent e], by simp, by rw [ha]; exact h1, by rw [ha]; exact h2⟩

/-- While receiving. -/
def Receiving (request answer : Bytes) (got rest : σ → Bytes) (l0 : List (Ev PLog)) (s : σ) (l : List (Ev PLog)) : Prop :=
  ∃ evs, l = l0 ++ evs ∧ got s = request ∧ received evs ++ rest s = answer ∧
    ∀ pre off len ret data post, evs = pre ++ .recv off len ret data :: post →
      0 ≤ ret ∧ received pre ++ data <+: answer ∧ (data = [] → len = 0 ∨ received pre = answer)

theorem receiving_snoc {l0 l : List (Ev PLog)} {s s' : σ} {e : Ev PLog} (h : Receiving request answer got rest l0 s l)
    (he : ∀ off len ret data, e ≠ .recv off len ret data) (h1 : got s' = got s) (h2 : rest s' = rest s) :
    Receiving request answer got rest l0 s' (l ++ [e]) := by
  obtain ⟨evs, rfl, g1, g2, g3⟩ := h
  have hr : received (evs ++ [e]) = received evs := by
    rw [received_append]
    cases e with
    | recv off len ret data => exact absurd rfl (he off len ret data)
    | _ => simp [received]
  refine ⟨evs ++ [e], by simp, by rw [h1]; exact g1, by rw [hr, h2]; exact g2, ?_⟩
  intro pre off len ret data post h
  rcases split_append h with ⟨post', h3, _⟩ | ⟨pre', rfl, h3⟩
  · exact g3 _ _ _ _ _ _ h3
  · cases pre' with
    | nil => simp at h3; exact absurd h3.1 (he _ _ _ _)
    | cons x xs => simp at h3

theorem giver_of (hP : Peer request answer got rest send recv resp) : Giver got rest recv resp :=
  ⟨hP.delivers, hP.progress, hP.keeps, hP.clock, hP.header⟩

theorem receiving_inv_giver (hP : Giver got rest recv resp) (l0 : List (Ev PLog)) :
    EnvInv (Receiving request answer got rest l0) (fun s _ => (0, s)) recv resp.getTime resp.pHeaderParsingCallback where
  stored := fun s len => by rw [(hP.delivers s len).1]; omega
  send := fun s l d _ h => receiving_snoc h (by simp) rfl rfl
  recv := by
    rintro s l off len ⟨evs, rfl, g1, g2, g3⟩
    obtain ⟨d1, d2⟩ := hP.delivers s len
    have hpr := hP.progress s len
    have hk := hP.keeps s len
    generalize recv s len = r at d1 d2 hpr hk
    rw [show r.1.toNat = r.2.1.length by omega, List.take_length]
    refine ⟨evs ++ [.recv off len r.1 r.2.1], by simp, by rw [hk]; exact g1, ?_, ?_⟩
    · rw [received_append]
      simp only [received, List.append_nil]
      rw [List.append_assoc, d2]; exact g2
    · intro pre off' len' ret data post h
      rcases split_append h with ⟨post', h3, _⟩ | ⟨pre', rfl, h3⟩
      · exact g3 _ _ _ _ _ _ h3
      · cases pre' with
        | cons x xs => simp at h3
        | nil =>
          simp only [List.nil_append, List.cons.injEq, Ev.recv.injEq] at h3
          obtain ⟨⟨rfl, rfl, rfl, rfl⟩, rfl⟩ := h3
          simp only [List.append_nil]
          refine ⟨by omega, ⟨rest r.2.2, by rw [List.append_assoc, d2]; exact g2⟩, fun h0 => ?_⟩
          rcases Nat.eq_zero_or_pos len with h4 | h4
          · exact .inl h4
          · right
            by_cases h5 : rest s = []
            · rw [h5, List.append_nil] at g2; exact g2
            · exact absurd h0 (hpr h4 h5)
  zero := fun _ s l h => receiving_snoc h (by simp) rfl rfl
  user := fun f hf s l h => receiving_snoc h (by simp) (hP.clock f hf s).1 (hP.clock f hf s).2
  header := fun c hc s l a f b v code h => receiving_snoc h (by simp) (hP.header c hc s a f b v code).1 (hP.header c hc s a f b v code).2
  call := fun s l off data h => receiving_snoc h (by simp) rfl rfl
  event := fun s l e h => receiving_snoc h (by simp) rfl rfl

theorem receiving_inv (hP : Peer request answer got rest send recv resp) (l0 : List (Ev PLog)) :
    EnvInv (Receiving request answer got rest l0) (fun s _ => (0, s)) recv resp.getTime resp.pHeaderParsingCallback :=
  receiving_inv_giver (giver_of hP) l0

theorem recvs_le_received : ∀ {evs : List (Ev PLog)},
    (∀ pre off len ret data post, evs = pre ++ .recv off len ret data :: post → data ≠ []) → (recvs evs).length ≤ (received evs).length := by
  intro evs
  induction evs with
  | nil => intro _; exact Nat.le_refl _
  | cons e es ih =>
    intro h
    have h1 := ih fun pre off len ret data post he => h (e :: pre) off len ret data post (by rw [he]; rfl)
    cases e with
    | recv off len ret data =>
      have := List.length_pos_iff.mpr (h [] off len ret data es rfl)
      simp only [recvs, received, List.length_cons, List.length_append]
      omega
    | _ => simpa [recvs, received] using h1

/-- When everything has been fed to the parser, the message is complete. -/
theorem fed_complete {w : World PLog σ} {head : Bool} {r : Response} (hp : RecvPre true httpParser cfg T recv resp rh b rb w.mem)
    (ok : r.Ok head) (hreq : ReqIs head (headerBlock w.mem rh)) (hflag : ¬ headersOnly resp.respOptionFlags) {evs : List (Ev PLog)}
    (hf : FedOk httpParser (policy resp.respOptionFlags (startsHead w.mem rb)) evs) (hall : received evs = r.bytes) :
    msgState evs = .complete := by
  obtain ⟨f1, f2, f3⟩ := hf
  rw [policy_eq, answer_of hp hreq hflag] at f2 f3
  have hfl : (calls evs).flatten = r.bytes := by rw [calls_flatten, f1, hall]
  have hfv := feed_view http_machine_ok (answerTo head) (calls evs)
  have hrun : ∀ p, absRun http (answerTo head) 0 (View.empty, .live http.init none) p = run (answerTo head) 0 (View.empty, .live .start none) p :=
    fun _ => rfl
  obtain ⟨_, _, _, _, _, _, _, _, q1⟩ := response_run ok
  rw [show feedAll http.toParser = feedAll httpParser from rfl, hrun, hfl, q1] at hfv
  rcases hfv with ⟨v, a, o, g1, _, _, g2, g3⟩ | ⟨v, er', g1, _⟩
  · obtain ⟨rfl, g1⟩ := Prod.mk.inj g1
    unfold msgState
    rw [f2, g2]; rfl
  · cases g1

/-- Receiving from a peer that delivers, whatever it did with what was sent. -/
theorem giver_receive {w : World PLog σ} {head : Bool} {r : Response} (hp : RecvPre true httpParser cfg T recv resp rh b rb w.mem)
    (ok : r.Ok head) (hreq : ReqIs head (headerBlock w.mem rh)) (hflag : ¬ headersOnly resp.respOptionFlags)
    (hfit : r.bytes.length ≤ resp.bufferLen) (hP : Giver got rest recv resp) (hgot : got w.env = request)
    (hrest : rest w.env = r.bytes) {fuel : Nat} (hfuel : resp.bufferLen < fuel) :
    ∃ resp' w' evs, HTTPClient_ReceiveAndParseHttpResponse httpParser cfg fuel (some T) (some resp) (some rh) w = (.ok (.success, resp'), w') ∧
      w'.log = w.log ++ evs ∧ received evs = r.bytes ∧ rest w'.env = [] ∧ got w'.env = request ∧
      Got cfg r resp.pHeaderParsingCallback.isSome evs w'.mem resp' := by
  have hx : ∀ s len, (recv s len).1 = ((recv s len).2.1.length : Int) := fun s len => (hP.delivers s len).1
  obtain ⟨res, w', t0, evs, e, hl, h58⟩ := C58_round_trip_receive hp ok hreq hflag hfit fuel
  -- the relation of environment and trace
  have hk := (receive_keeps httpParser cfg hp.hasRecv (receiving_inv_giver hP w.log) rh fuel w
    ⟨[], by simp, hgot, by simpa [received] using hrest, by intro pre off len ret data post h; cases pre <;> cases h⟩).1
  rw [e] at hk
  obtain ⟨evs', hl', g1, g2, g3⟩ := hk
  obtain rfl : Ev.time t0 :: evs = evs' := List.append_cancel_left (hl.symm.trans hl')
  -- every receive call delivers something
  have hne : ∀ pre off len ret data post, Ev.time t0 :: evs = pre ++ .recv off len ret data :: post → data ≠ [] := by
    intro pre off len ret data post he h0
    obtain ⟨_, _, evs1, e1, l1, h29, _⟩ := C29_receive_contiguous hp fuel
    rw [e] at e1; cases e1
    obtain rfl : Ev.time t0 :: evs = evs1 := List.append_cancel_left (hl.symm.trans l1)
    obtain ⟨_, _, evs1, e1, l1, h51⟩ := C51_one_response_partial hp fuel
    rw [e] at e1; cases e1
    obtain rfl : Ev.time t0 :: evs = evs1 := List.append_cancel_left (hl.symm.trans l1)
    obtain ⟨_, _, t1, evs1, e1, l1, hfa⟩ := receive_fedAt hp fuel
    rw [e] at e1; cases e1
    obtain ⟨ht, hev⟩ := List.cons.inj (List.append_cancel_left (hl.symm.trans l1))
    cases ht; cases hev
    rcases (g3 _ _ _ _ _ _ he).2.2 h0 with h1 | h1
    · have := (h29 _ _ _ _ _ _ he).2.2.1; omega
    · refine h51 _ _ _ _ _ _ he (fed_complete hp ok hreq hflag ?_ h1)
      rcases split_cons he with ⟨_, h2, _⟩ | ⟨pre', rfl, h2⟩
      · cases h2
      · exact hfa _ _ _ _ _ _ h2
  have hcount := recvs_le_received hne
  have hlen : (received (Ev.time t0 :: evs)).length ≤ r.bytes.length := by
    rw [← g2, List.length_append]; omega
  -- the call returns
  have hm : res ≠ .more := by
    rintro rfl
    have h1 := receive_more hp hx (fuel := fuel) (by rw [e])
    rw [e] at h1
    dsimp only at h1
    rw [hl, recvs_append, List.length_append] at h1
    omega
  have hnf : ∀ f, res ≠ .fault f := by
    obtain ⟨_, _, _, e1, _, _, h1, _⟩ := receive_no_send hp fuel
    rw [e] at e1; cases e1
    exact h1
  rcases res with ⟨st, resp'⟩ | f | _
  · have hdel : Delivers r.bytes evs := by
      intro pre off len ret data post he
      have := g3 (.time t0 :: pre) off len ret data post (by rw [he]; rfl)
      exact ⟨this.1, this.2.1⟩
    rcases h58 hdel _ _ rfl with ⟨rfl, h1, h2⟩ | ⟨_, _, pre, off, len, t, post, h1, _⟩
    · refine ⟨resp', w', _, e, hl, h1, ?_, g1, { h2 with reported := h2.reported }⟩
      have : received (Ev.time t0 :: evs) = r.bytes := h1
      rw [this] at g2
      exact List.append_right_eq_self.mp g2
    · exact absurd rfl (hne (.time t0 :: pre) off len 0 [] _ (by rw [h1]; rfl))
  · exact absurd rfl (hnf f)
  · exact absurd rfl hm

/-- **C58, with a cooperative peer, receiving.** -/
theorem C58_peer_receive {w : World PLog σ} {head : Bool} {r : Response} (hp : RecvPre true httpParser cfg T recv resp rh b rb w.mem)
    (ok : r.Ok head) (hreq : ReqIs head (headerBlock w.mem rh)) (hflag : ¬ headersOnly resp.respOptionFlags)
    (hfit : r.bytes.length ≤ resp.bufferLen) (hP : Peer request r.bytes got rest send recv resp) (hgot : got w.env = request)
    (hrest : rest w.env = r.bytes) {fuel : Nat} (hfuel : resp.bufferLen < fuel) :
    ∃ resp' w' evs, HTTPClient_ReceiveAndParseHttpResponse httpParser cfg fuel (some T) (some resp) (some rh) w = (.ok (.success, resp'), w') ∧
      w'.log = w.log ++ evs ∧ received evs = r.bytes ∧ rest w'.env = [] ∧ got w'.env = request ∧
      Got cfg r resp.pHeaderParsingCallback.isSome evs w'.mem resp' :=
  giver_receive hp ok hreq hflag hfit (giver_of hP) hgot hrest hfuel

/-- **C58, with a cooperative peer.** For every request that fits in its buffer, every well-formed response to it that fits in the response buffer,
and every peer that accepts the request and delivers this response, in pieces of any size and at any speed: HTTPClient_Send returns HTTPSuccess (within
as many transport calls as there are bytes, plus one), the peer has got exactly the request, and everything is reported as the peer sent it. -/
theorem C58_exchange {w : World PLog σ} {head : Bool} {r : Response}
    (hp : CallPre true httpParser cfg T send recv rh rb body n resp b w.mem)
    (ok : r.Ok head) (hreq : ReqIs head (headerBlock w.mem rh)) (hflag : ¬ headersOnly resp.respOptionFlags)
    (hfit : r.bytes.length ≤ resp.bufferLen) (hfit' : (wireHeaders (headerBlock w.mem rh) n flags.toNat).length ≤ rh.bufferLen)
    (hP : Peer (wireRequest w.mem rh body n flags) r.bytes got rest send recv resp) (hgot : got w.env = [])
    {fuel : Nat} (hf1 : rh.bufferLen ≤ fuel) (hf2 : n ≤ fuel) (hf3 : resp.bufferLen < fuel) :
    ∃ rh' resp' w' evs, HTTPClient_Send httpParser cfg fuel (some T) (some rh) body n (some resp) flags w = (.ok (.success, some rh', some resp'), w') ∧
      w'.log = w.log ++ evs ∧ got w'.env = wireRequest w.mem rh body n flags ∧ rest w'.env = [] ∧
      accepted evs = wireRequest w.mem rh body n flags ∧ received evs = r.bytes ∧
      Got cfg r resp.pHeaderParsingCallback.isSome evs w'.mem resp' := by
  have hblk : 16 ≤ (headerBlock w.mem rh).length := by
    have h1 := hp.reqLen; have h2 := hp.reqRoom; have h3 := hp.reqLe
    unfold headerBlock; rw [hp.reqBuf]; simp only [List.length_take]; omega
  have hP' : Peer (wireRequest w.mem rh body n flags) r.bytes got rest send recv (withClock resp) :=
    { hP with
      clock := by
        intro f hf
        refine hP.clock f ?_
        unfold withClock at hf
        cases hc : resp.getTime <;> rw [hc] at hf <;> first | exact hf | cases hf
      header := hP.header }
  have hwr : wireRequest w.mem rh body n flags ≠ [] := by
    intro h
    have h1 := congrArg List.length (wireHeaders_take hblk n flags.toNat)
    have h2 : wireHeaders (headerBlock w.mem rh) n flags.toNat = [] := by
      unfold wireRequest at h; exact (List.append_eq_nil_iff.mp h).1
    rw [h2] at h1
    simp at h1
    omega
  obtain ⟨h', hall⟩ := sendRequest_all (flags := flags) (withClock_ne resp) hp hfit' hP.accepts hf1 hf2
  have hk := (sendRequest_keeps (sending_inv hP' w.log) cfg hp.hasSend rh body n flags fuel w
    ⟨[], by simp, by simpa [accepted] using hgot, fun h => absurd h.symm hwr⟩).1
  rw [send_eq hp fuel]
  simp only [M.bind_apply]
  rcases sendRequest_spec (flags := flags) (withClock_ne resp) hp fuel with ⟨h1, h2⟩ | ⟨h1, q, s', m', rh', evs1, e, hfr, hb, hbl, hle, hB, hlen, h2⟩
  · omega
  rw [e] at hall hk
  dsimp only at hall
  rcases h2 with ⟨rfl, hph⟩ | ⟨rfl | rfl, _⟩
  · rw [e]
    simp only [if_true, M.bind_apply]
    obtain ⟨evs1', hl1, k1, k2⟩ := hk
    obtain rfl : evs1 = evs1' := List.append_cancel_left hl1
    obtain ⟨s1, s2, _, s4⟩ := sending_kinds hph.kinds
    have hacc := hph.all_ rfl
    have hr := recvPre_of hp hfr hb hbl hle hB hlen
    obtain ⟨resp', w', evs, e2, hl2, a1, a2, a3, a4⟩ := C58_peer_receive (w := ⟨s', m', w.log ++ evs1⟩) (r := r) (head := head) hr ok
      (by dsimp only; rw [hB]; exact reqIs_wire hblk _ _ hreq) hflag hfit hP' (k1.trans hacc) (k2 hacc) hf3
    obtain ⟨_, _, evs', e', hl', hns, _, _⟩ := receive_no_send (w := ⟨s', m', w.log ++ evs1⟩) hr fuel
    rw [e2] at e'; cases e'
    obtain rfl : evs = evs' := List.append_cancel_left (hl2.symm.trans hl')
    rw [e2]
    refine ⟨rh', resp', w', evs1 ++ evs, rfl, by rw [hl2]; simp, a3, a2, ?_, ?_, ?_⟩
    · rw [accepted_append', (sends_nil hns).2, List.append_nil]; exact hacc
    · rw [received_append, s4]; exact a1
    · exact { a4 with reported := by rw [reported_append, s2]; exact a4.reported }
  · cases hall
  · cases hall

/-! ### Non-vacuity: a peer, and responses -/

/-- Environment: milliseconds, what the peer has got, what it has still to deliver. -/
abbrev PeerEnv := Nat × Bytes × Bytes

/-- The peer takes at most 7 bytes at a time; when it has got `request`, it will deliver `answer`. -/
def peerSend (request answer : Bytes) : PeerEnv → Bytes → Int × PeerEnv := fun s d =>
  (((min 7 d.length : Nat) : Int), s.1 + 1, s.2.1 ++ d.take 7, if s.2.1 ++ d.take 7 = request then answer else s.2.2)
/-- It delivers at most 5 bytes at a time. -/
def peerRecv : PeerEnv → Nat → Int × Bytes × PeerEnv := fun s len =>
  (((min (min 5 len) s.2.2.length : Nat) : Int), s.2.2.take (min 5 len), s.1 + 1, s.2.1, s.2.2.drop (min 5 len))
/-- The clock. -/
def peerClock : PeerEnv → UInt32 × PeerEnv := fun s => (UInt32.ofNat s.1, s)
/-- A response object in block `q`, with a header callback. -/
def peerResp (q : Nat) : Resp PeerEnv := ⟨some q, 200, some (.user fun s _ _ _ _ _ => s), .user peerClock, some 3, 4, some 5, 6, 999, 77, 8, 1, 0, 3⟩

theorem peer_ok (request answer : Bytes) (q : Nat) :
    Peer request answer (fun s => s.2.1) (fun s => s.2.2) (peerSend request answer) peerRecv (peerResp q) where
  accepts := by
    intro s d hd
    have := List.length_pos_iff.mpr hd
    simp only [peerSend]; omega
  takes := by
    intro s d
    simp only [peerSend]
    congr 1
    rcases Nat.le_total 7 d.length with h | h
    · rw [Nat.min_eq_left h]; rfl
    · rw [Nat.min_eq_right h, List.take_of_length_le h, List.take_of_length_le (by omega)]
  answers := by intro s d h; simp only [peerSend] at h ⊢; rw [if_pos h]
  delivers := by
    intro s len
    simp only [peerRecv]
    exact ⟨by rw [List.length_take], List.take_append_drop _ _⟩
  progress := by
    intro s len hl hr h
    have h1 := List.length_pos_iff.mpr hr
    have := congrArg List.length h
    simp only [peerRecv, List.length_take, List.length_nil] at this
    omega
  keeps := fun _ _ => rfl
  clock := by intro f hf s; cases hf; exact ⟨rfl, rfl⟩
  header := by intro c hc s a f b v code; cases hc; exact ⟨rfl, rfl⟩

/-- A response with header fields, three chunks (one with an extension), and two trailer fields. -/
def exResponse : Response where
  version := .v11
  code := 206
  reason := ascii "Partial Content"
  fields := [⟨ascii "Server", ascii " ", ascii "x y"⟩, ⟨ascii "TRANSFER-encoding", ascii "\t", ascii "Chunked"⟩, ⟨ascii "Connection", [], ascii "close"⟩]
  content := .chunked [⟨ascii "3", [], ascii "abc"⟩, ⟨ascii "0B", ascii ";a=b", ascii "defghijklmn"⟩, ⟨ascii "1", [], [0]⟩] (ascii "00") []
    [⟨ascii "T1", ascii " ", ascii "v1"⟩, ⟨ascii "T2", ascii " ", ascii "v2"⟩]

example : exResponse.bytes = ascii ("HTTP/1.1 206 Partial Content\r\nServer: x y\r\nTRANSFER-encoding:\tChunked\r\nConnection:close\r\n\r\n" ++
    "3\r\nabc\r\n0B;a=b\r\ndefghijklmn\r\n1\r\n\x00\r\n00\r\nT1: v1\r\nT2: v2\r\n\r\n") := by decide +kernel

/-- A decidable form of `FieldOk`. -/
theorem fieldOk_of {f : Field} (h : (!f.name.isEmpty && f.name.all isTokenChar && f.ows.all (fun c => c == 32 || c == 9) &&
    f.value.all (fun c => c != 13 && c != 10 && c != 0) && f.value.head? != some 32 && f.value.head? != some 9) = true) : FieldOk f := by
  simp only [Bool.and_eq_true, Bool.not_eq_true', List.isEmpty_eq_false_iff, List.all_eq_true, bne_iff_ne, Bool.or_eq_true, beq_iff_eq] at h
  obtain ⟨⟨⟨⟨⟨h1, h2⟩, h3⟩, h4⟩, h5⟩, h6⟩ := h
  exact ⟨⟨h1, h2⟩, h3, fun c hc => ⟨(h4 c hc).1.1, (h4 c hc).1.2, (h4 c hc).2⟩, h5, h6⟩

theorem exResponse_ok : exResponse.Ok false where
  code := by decide
  reason := by decide +kernel
  fields := by
    intro f hf
    simp only [exResponse, List.mem_cons, List.not_mem_nil, or_false] at hf
    rcases hf with rfl | rfl | rfl <;> exact fieldOk_of (by decide +kernel)
  content := by
    refine ⟨rfl, by decide +kernel, ⟨⟨ascii "TRANSFER-encoding", ascii "\t", ascii "Chunked"⟩, by decide +kernel, by decide +kernel, by decide +kernel⟩,
      ?_, ?_, .inl rfl, ?_⟩
    · intro c hc
      simp only [List.mem_cons, List.not_mem_nil, or_false] at hc
      rcases hc with rfl | rfl | rfl
      · exact ⟨by decide, .one 51 3 rfl, .inl rfl⟩
      · exact ⟨by decide, .more [48] 0 66 11 (.one 48 0 rfl) rfl, .inr ⟨ascii "a=b", rfl, by decide +kernel⟩⟩
      · exact ⟨by decide, .one 49 1 rfl, .inl rfl⟩
    · exact .more [48] 0 48 0 (.one 48 0 rfl) rfl
    · intro f hf
      simp only [List.mem_cons, List.not_mem_nil, or_false] at hf
      rcases hf with rfl | rfl <;> exact fieldOk_of (by decide +kernel)

theorem peerSend_ok (request answer : Bytes) : SendOk (peerSend request answer) := by
  intro s d; simp only [peerSend]; exact Int.ofNat_le.mpr (Nat.min_le_right _ _)

theorem peerRecv_ok : RecvOk peerRecv := by
  intro s len; simp only [peerRecv, List.length_take]; omega

/-- The peer as a transport. -/
def peerT (request answer : Bytes) : Transport PeerEnv := ⟨some (peerSend request answer), some peerRecv⟩

theorem peerCallPre (request answer : Bytes) (q : Nat) (hq : q = 0 ∨ q = 1) :
    CallPre true httpParser exCfg (peerT request answer) (peerSend request answer) peerRecv xReq 0 (some 2) 5 (peerResp q) q xMem where
  parser := Ref.httpParser_ok
  hasSend := rfl
  sendOk := peerSend_ok request answer
  hasRecv := rfl
  recvOk := peerRecv_ok
  reqBuf := rfl
  reqRoom := by decide +kernel
  reqLen := by decide
  reqLe := by decide
  reqSize := by decide
  buf := rfl
  pos := by simp [peerResp]
  room := by rcases hq with rfl | rfl <;> decide +kernel
  size := by show 200 < 2 ^ exCfg.sizeBits; decide
  callback := by simp [peerResp]
  bodyNone := by intro h; cases h
  bodyRoom := by
    intro bb h; cases h; exact ⟨by decide, by decide⟩
  bodyMax := by decide

/-- All hypotheses of C58 hold for a PUT request with a body (the response in the request's buffer or in another), and a chunked response. -/
example (q : Nat) (hq : q = 0 ∨ q = 1) (t : Nat) : ∃ rh' resp' w' evs,
    HTTPClient_Send httpParser exCfg 300 (some (peerT (wireRequest xMem xReq (some 2) 5 0) exResponse.bytes)) (some xReq) (some 2) 5
      (some (peerResp q)) 0 ⟨(t, [], []), xMem, []⟩ = (.ok (.success, some rh', some resp'), w') ∧ w'.log = evs ∧
    w'.env.2 = (wireRequest xMem xReq (some 2) 5 0, []) ∧ received evs = exResponse.bytes ∧
    Got exCfg exResponse true evs w'.mem resp' ∧
    reported evs = [(ascii "Server", ascii "x y", 206), (ascii "TRANSFER-encoding", ascii "Chunked", 206), (ascii "Connection", ascii "close", 206),
      (ascii "T1", ascii "v1", 206)] ∧
    bodyBytes w'.mem resp' = ascii "abcdefghijklmn" ++ [0] ∧ bit resp'.respFlags 0 ∧ ¬ bit resp'.respFlags 1 := by
  obtain ⟨rh', resp', w', evs, e, hl, h1, h2, _, h4, h5⟩ := C58_exchange (w := (⟨(t, [], []), xMem, []⟩ : World PLog PeerEnv))
    (flags := 0) (fuel := 300) (peerCallPre _ _ q hq) exResponse_ok (show ¬ ascii "HEAD" <+: headerBlock xMem xReq by decide +kernel)
    (show ¬ ((0 : UInt32).toNat % 2 = 1) by decide) (show exResponse.bytes.length ≤ 200 by decide +kernel)
    (show (wireHeaders (headerBlock xMem xReq) 5 (UInt32.toNat 0)).length ≤ 60 by decide +kernel) (peer_ok _ _ q) rfl (by decide) (by decide)
    (show 200 < 300 by decide)
  refine ⟨rh', resp', w', evs, e, by simpa using hl, Prod.ext h1 h2, h4, h5, ?_, ?_, ?_, ?_⟩
  · have := h5.reported
    rw [show (peerResp q).pHeaderParsingCallback.isSome = true from rfl, if_pos rfl] at this
    rw [this]; decide +kernel
  · rw [h5.body]; decide +kernel
  · rw [h5.close]
    exact ⟨⟨ascii "Connection", [], ascii "close"⟩, by decide +kernel, by decide +kernel, by decide +kernel⟩
  · rw [h5.keepAlive]
    rintro ⟨f, hf, h6, h7⟩
    simp only [exResponse, List.mem_cons, List.not_mem_nil, or_false] at hf
    rcases hf with rfl | rfl | rfl <;> revert h6 h7 <;> decide +kernel

/-- Responses of the other kinds are well formed, too: a body with Content-Length from an HTTP/1.0 server, an answer to HEAD, and 304. -/
def exLength : Response := ⟨.v10, 200, [], [⟨ascii "Content-Length", ascii " ", ascii "2"⟩], .length (ascii "hi")⟩
def exHead : Response := ⟨.v11, 200, ascii "OK", [⟨ascii "Content-Length", ascii " ", ascii "1000000"⟩], .none⟩
def ex304 : Response := ⟨.v11, 304, ascii "Not Modified", [], .none⟩

example : exLength.Ok false ∧ exHead.Ok true ∧ ex304.Ok false := by
  refine ⟨⟨by decide, by decide, ?_, ?_⟩, ⟨by decide, by decide +kernel, ?_, ?_⟩, ⟨by decide, by decide +kernel, by simp [ex304], ?_⟩⟩
  · intro f hf
    simp only [exLength, List.mem_cons, List.not_mem_nil, or_false] at hf
    subst hf; exact fieldOk_of (by decide +kernel)
  · refine ⟨rfl, ⟨⟨ascii "Content-Length", ascii " ", ascii "2"⟩, by decide +kernel, by decide +kernel⟩, by decide, ?_⟩
    intro f hf
    simp only [exLength, List.mem_cons, List.not_mem_nil, or_false] at hf
    subst hf; decide +kernel
  · intro f hf
    simp only [exHead, List.mem_cons, List.not_mem_nil, or_false] at hf
    subst hf; exact fieldOk_of (by decide +kernel)
  · refine ⟨.inl rfl, .inr ⟨1000000, ⟨⟨ascii "Content-Length", ascii " ", ascii "1000000"⟩, by decide +kernel, by decide +kernel⟩, by decide, ?_⟩⟩
    intro f hf
    simp only [exHead, List.mem_cons, List.not_mem_nil, or_false] at hf
    subst hf; decide +kernel
  · exact ⟨.inr ⟨by unfold Response.bodiless; decide, by decide, fun ⟨_, h, _⟩ => by simp [ex304] at h⟩, .inl (by decide +kernel)⟩

/-- Lists of connection options and of transfer codings, and blanks around a length, are well formed, too. -/
def exLists : Response := ⟨.v11, 200, ascii "OK", [⟨ascii "Connection", ascii " ", ascii "Keep-Alive , Upgrade"⟩,
  ⟨ascii "Transfer-Encoding", ascii " ", ascii "gzip, chunked"⟩], .chunked [⟨ascii "1", [], ascii "z"⟩] (ascii "0") [] []⟩
def exBlanks : Response := ⟨.v11, 200, ascii "OK", [⟨ascii "Content-Length", ascii " ", ascii "2 \t"⟩], .length (ascii "hi")⟩

example : exLists.Ok false ∧ exLists.connection "keep-alive" ∧ ¬ exLists.closes ∧ exBlanks.Ok false ∧ exLength.closes := by
  refine ⟨⟨by decide, by decide +kernel, ?_, rfl, by decide +kernel, ?_, ?_, .one _ _ (by decide +kernel), .inl rfl, by simp⟩, ?_, ?_, ⟨by decide, by decide +kernel, ?_, rfl, ?_⟩, ?_⟩
  · intro f hf
    simp only [exLists, List.mem_cons, List.not_mem_nil, or_false] at hf
    rcases hf with rfl | rfl <;> exact fieldOk_of (by decide +kernel)
  · exact ⟨⟨ascii "Transfer-Encoding", ascii " ", ascii "gzip, chunked"⟩, by decide +kernel, by decide +kernel, by decide +kernel⟩
  · intro c hc
    simp only [List.mem_cons, List.not_mem_nil, or_false] at hc
    subst hc
    exact ⟨by decide +kernel, .one _ _ (by decide +kernel), .inl rfl⟩
  · exact ⟨⟨ascii "Connection", ascii " ", ascii "Keep-Alive , Upgrade"⟩, by decide +kernel, by decide +kernel, by decide +kernel⟩
  · rintro (⟨f, hf, h1, h2⟩ | ⟨h, _⟩)
    · simp only [exLists, List.mem_cons, List.not_mem_nil, or_false] at hf
      rcases hf with rfl | rfl <;> revert h1 h2 <;> decide +kernel
    · cases h
  · intro f hf
    simp only [exBlanks, List.mem_cons, List.not_mem_nil, or_false] at hf
    subst hf; exact fieldOk_of (by decide +kernel)
  · refine ⟨⟨⟨ascii "Content-Length", ascii " ", ascii "2 \t"⟩, by decide +kernel, by decide +kernel⟩, by decide, ?_⟩
    intro f hf
    simp only [exBlanks, List.mem_cons, List.not_mem_nil, or_false] at hf
    subst hf; decide +kernel
  · refine .inr ⟨rfl, ?_⟩
    rintro ⟨f, hf, h1, h2⟩
    simp only [exLength, List.mem_cons, List.not_mem_nil, or_false] at hf
    subst hf; revert h1; decide +kernel

end CoreHttp.Props

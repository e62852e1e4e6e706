import Verif.Spec.Early
import Verif.Props.Exchange
import Verif.Props.Reuse

/-! # C109: a response that comes before the request is complete -/

namespace CoreHttp.Props
open CoreHttp Spec Ref Machine
variable {σ : Type} {cfg : Cfg} {T : Transport σ} {send : σ → Bytes → Int × σ} {recv : σ → Nat → Int × Bytes × σ} {rh : ReqHeaders} {rb b n : Nat}
  {body : Option Nat} {resp : Resp σ} {flags : UInt32} {rest : σ → Bytes}

/-- Sending leaves what the server has to deliver alone. -/
theorem ignores_inv (hS : EarlyServer rest send recv resp) (x : Bytes) :
    EnvInv (fun s (_ : List (Ev PLog)) => rest s = x) send (fun s _ => (0, [], s)) resp.getTime resp.pHeaderParsingCallback where
  stored := fun _ _ => Nat.le_refl _
  send := fun s _ d _ h => (hS.ignores s d).trans h
  recv := fun _ _ _ _ h => h
  zero := fun _ _ _ h => h
  user := fun f hf s _ h => (hS.clock f hf s).trans h
  header := fun c hc s _ a f b v code h => (hS.header c hc s a f b v code).trans h
  call := fun _ _ _ _ h => h
  event := fun _ _ _ h => h

/-- **C109.** A server answers before it has got the whole request, for instance because the body is too large, and may then take no more of it. If
HTTPClient_Send returns, then either with HTTPSuccess – the transport has accepted the whole request – and the response is reported; or with HTTPNetworkError,
nothing has been received, and the response is not lost: a call of HTTPClient_ReceiveAndParseHttpResponse with the objects as they are gets it, with
HTTPSuccess. -/
theorem C109_early {w : World PLog σ} {head : Bool} {r : Response}
    (hp : CallPre true httpParser cfg T send recv rh rb body n resp b w.mem)
    (ok : r.Ok head) (hreq : ReqIs head (headerBlock w.mem rh)) (hflag : ¬ headersOnly resp.respOptionFlags)
    (hfit : r.bytes.length ≤ resp.bufferLen) (hfit' : (wireHeaders (headerBlock w.mem rh) n flags.toNat).length ≤ rh.bufferLen)
    (hS : EarlyServer rest send recv resp) (hrest : rest w.env = r.bytes)
    {fuel fuel' : Nat} (hf : resp.bufferLen < fuel) (hf' : resp.bufferLen < fuel') :
    ∃ res w1 evs1, HTTPClient_Send httpParser cfg fuel (some T) (some rh) body n (some resp) flags w = (res, w1) ∧ w1.log = w.log ++ evs1 ∧
      ∀ st orh oresp, res = .ok (st, orh, oresp) → ∃ rh1 resp1, orh = some rh1 ∧ oresp = some resp1 ∧
        ((st = .success ∧ accepted evs1 = wireRequest w.mem rh body n flags ∧ received evs1 = r.bytes ∧ rest w1.env = [] ∧
            Got cfg r resp.pHeaderParsingCallback.isSome evs1 w1.mem resp1) ∨
          (st = .networkError ∧ accepted evs1 <+: wireRequest w.mem rh body n flags ∧ received evs1 = [] ∧
            ∃ resp2 w2 evs2, HTTPClient_ReceiveAndParseHttpResponse httpParser cfg fuel' (some T) (some resp1) (some rh1) w1 =
                (.ok (.success, resp2), w2) ∧ w2.log = w1.log ++ evs2 ∧ received evs2 = r.bytes ∧ rest w2.env = [] ∧
              Got cfg r resp.pHeaderParsingCallback.isSome evs2 w2.mem resp2)) := by
  have hblk : 16 ≤ (headerBlock w.mem rh).length := by
    have h1 := hp.reqLen; have h2 := hp.reqRoom; have h3 := hp.reqLe
    unfold headerBlock; rw [hp.reqBuf]; simp only [List.length_take]; omega
  have hclk : ∀ f, (withClock resp).getTime = .user f → resp.getTime = .user f := by
    intro f hf
    unfold withClock at hf
    cases hc : resp.getTime <;> rw [hc] at hf <;> first | exact hf | cases hf
  have hS' : EarlyServer rest send recv (withClock resp) := { hS with clock := fun f hf => hS.clock f (hclk f hf), header := hS.header }
  have hG : Giver (fun _ => []) rest recv (withClock resp) :=
    ⟨hS.delivers, hS.progress, fun _ _ => rfl, fun f hf s => ⟨rfl, hS'.clock f hf s⟩, fun c hc s a f b v code => ⟨rfl, hS.header c hc s a f b v code⟩⟩
  have hk := (sendRequest_keeps (ignores_inv hS' r.bytes) cfg hp.hasSend rh body n flags fuel w hrest).1
  rw [send_eq hp fuel]
  simp only [M.bind_apply]
  rcases sendRequest_spec (flags := flags) (withClock_ne resp) hp fuel with ⟨h1, h2⟩ | ⟨h1, q, s', m', rh', evs1, e, hfr, hb, hbl, hle, hB, hlen, h2⟩
  · omega
  rw [e] at hk ⊢
  have hr := recvPre_of hp hfr hb hbl hle hB hlen
  have hget : ∀ fu, resp.bufferLen < fu → _ := fun fu hfu => giver_receive (w := ⟨s', m', w.log ++ evs1⟩) (r := r) (head := head) hr ok
    (by dsimp only; rw [hB]; exact reqIs_wire hblk _ _ hreq) hflag hfit hG rfl hk (fuel := fu) hfu
  rcases h2 with ⟨rfl, hph⟩ | ⟨rfl | rfl, hph⟩
  · obtain ⟨s1, s2, _, s4⟩ := sending_kinds hph.kinds
    obtain ⟨resp', w', evs, e2, hl2, a1, a2, _, a4⟩ := hget fuel hf
    obtain ⟨_, _, evs', e', hl', hns, _, _⟩ := receive_no_send (w := ⟨s', m', w.log ++ evs1⟩) hr fuel
    rw [e2] at e'; cases e'
    obtain rfl : evs = evs' := List.append_cancel_left (hl2.symm.trans hl')
    simp only [if_true, M.bind_apply, e2]
    refine ⟨_, w', evs1 ++ evs, rfl, by rw [hl2]; simp, ?_⟩
    intro st orh oresp h
    cases h
    refine ⟨rh', resp', rfl, rfl, .inl ⟨rfl, ?_, ?_, a2, { a4 with reported := by rw [reported_append, s2]; exact a4.reported }⟩⟩
    · rw [accepted_append', (sends_nil hns).2, List.append_nil]; exact hph.all_ rfl
    · rw [received_append, s4]; exact a1
  · refine ⟨_, _, evs1, rfl, rfl, ?_⟩
    intro st orh oresp h
    cases h
    obtain ⟨resp', w', evs, e2, hl2, a1, a2, _, a4⟩ := hget fuel' hf'
    exact ⟨rh', _, rfl, rfl, .inr ⟨rfl, hph.prefix_, (sending_kinds hph.kinds).2.2.2, resp', w', evs, e2, hl2, a1, a2, a4⟩⟩
  · refine ⟨_, _, evs1, rfl, rfl, ?_⟩
    intro st orh oresp h
    cases h

/-! ## A concrete case -/

/-- The server takes 30 bytes and no more. -/
def earlySend : PeerEnv → Bytes → Int × PeerEnv := fun s d =>
  (((min d.length (30 - s.2.1.length) : Nat) : Int), s.1 + 1, s.2.1 ++ d.take (30 - s.2.1.length), s.2.2)
def earlyT : Transport PeerEnv := ⟨some earlySend, some peerRecv⟩
/-- Its answer. -/
def tooLarge : Response := ⟨.v11, 413, ascii "Content Too Large", [⟨ascii "Content-Length", ascii " ", ascii "3"⟩], .length (ascii "no!")⟩

theorem tooLarge_ok : tooLarge.Ok false := by
  refine ⟨show 100 ≤ 413 ∧ 413 ≤ 999 by decide, show ∀ c ∈ ascii "Content Too Large", c ≠ 13 ∧ c ≠ 10 by decide, ?_, rfl,
    ⟨⟨ascii "Content-Length", ascii " ", ascii "3"⟩, ?_, (by decide +kernel)⟩, (by decide +kernel), ?_⟩
  · intro f hf
    simp only [tooLarge, List.mem_singleton] at hf
    subst hf
    exact fieldOk_of (by decide +kernel)
  · unfold Response.lengths
    exact List.filter_cons_of_pos (decide_eq_true (show (ascii "Content-Length").map lowerAscii = ascii "content-length" by decide +kernel))
  · intro f hf
    simp only [tooLarge, List.mem_singleton] at hf
    subst hf
    show ¬ (ascii "Content-Length").map lowerAscii = ascii "transfer-encoding"
    decide +kernel

theorem early_server (q : Nat) : EarlyServer (fun s : PeerEnv => s.2.2) earlySend peerRecv (peerResp q) where
  ignores := fun _ _ => rfl
  delivers := (giver_of (peer_ok [] [] q)).delivers
  progress := (giver_of (peer_ok [] [] q)).progress
  clock := fun f hf s => ((giver_of (peer_ok [] [] q)).clock f hf s).2
  header := fun c hc s a f b v code => ((giver_of (peer_ok [] [] q)).header c hc s a f b v code).2

theorem early_pre : CallPre true httpParser exCfg earlyT earlySend peerRecv xReq 0 (some 2) 5 (peerResp 1) 1 xMem :=
  { peerCallPre [] [] 1 (.inr rfl) with
    hasSend := rfl
    sendOk := fun s d => by simp only [earlySend]; omega
    hasRecv := rfl }

/-- The hypotheses of C109 hold for a PUT request and a server that takes only the first 30 bytes of it; the second alternative of its conclusion is met. -/
example : ∃ rh1 resp1 w1 resp2 w2 evs1 evs2,
    HTTPClient_Send httpParser exCfg 300 (some earlyT) (some xReq) (some 2) 5 (some (peerResp 1)) 0 ⟨(0, [], tooLarge.bytes), xMem, []⟩ =
      (.ok (.networkError, some rh1, some resp1), w1) ∧ w1.log = evs1 ∧ received evs1 = [] ∧
    HTTPClient_ReceiveAndParseHttpResponse httpParser exCfg 300 (some earlyT) (some resp1) (some rh1) w1 = (.ok (.success, resp2), w2) ∧
    w2.log = w1.log ++ evs2 ∧ Got exCfg tooLarge true evs2 w2.mem resp2 ∧ resp2.statusCode = 413 ∧ bodyBytes w2.mem resp2 = ascii "no!" := by
  obtain ⟨res, w1, evs1, e, hl, h⟩ := C109_early (w := (⟨(0, [], tooLarge.bytes), xMem, []⟩ : World PLog PeerEnv)) (flags := 0) (fuel := 300)
    (fuel' := 300) (rest := fun s => s.2.2) early_pre tooLarge_ok (show ¬ ascii "HEAD" <+: headerBlock xMem xReq by decide +kernel)
    (show ¬ ((0 : UInt32).toNat % 2 = 1) by decide) (show tooLarge.bytes.length ≤ 200 by decide +kernel)
    (show (wireHeaders (headerBlock xMem xReq) 5 (UInt32.toNat 0)).length ≤ 60 by decide +kernel) (early_server 1) rfl (show 200 < 300 by decide)
    (show 200 < 300 by decide)
  have hst : (match (HTTPClient_Send httpParser exCfg 300 (some earlyT) (some xReq) (some 2) 5 (some (peerResp 1)) 0
      ⟨(0, [], tooLarge.bytes), xMem, []⟩).1 with | .ok (st, _, _) => decide (st = .networkError) | _ => false) = true := by decide +kernel
  rw [e] at hst
  rcases res with ⟨st, orh, oresp⟩ | f | _
  · obtain ⟨rh1, resp1, rfl, rfl, ⟨rfl, _⟩ | ⟨rfl, _, h1, resp2, w2, evs2, h2, h3, _, _, h4⟩⟩ := h _ _ _ rfl
    · cases hst
    · exact ⟨rh1, resp1, w1, resp2, w2, evs1, evs2, e, hl, h1, h2, h3, h4, h4.statusCode, h4.body⟩
  · cases hst
  · cases hst

end CoreHttp.Props

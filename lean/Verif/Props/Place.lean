import Verif.Ref.Place
import Verif.Props.Section

/-!
# Property C98: where pBody points

`Response.bodyAt`: Verif/Spec/Place.lean.
-/

namespace CoreHttp.Props
open CoreHttp Spec Ref Machine
variable {σ : Type} {P : Parser} {strict : Bool} {cfg : Cfg} {T : Transport σ} {send : σ → Bytes → Int × σ} {recv : σ → Nat → Int × Bytes × σ}
  {resp : Resp σ} {rh : ReqHeaders} {b rb : Nat} {body : Option Nat} {n : Nat} {flags : UInt32}

/-- Where the first body fragment of a list of events begins. -/
def placeOf (os : List PObs) : Option Nat := os.foldl firstBody none

theorem placeOf_span (os : List PObs) : (bodySpan os).map Prod.fst = placeOf os := by
  refine snocInduction (Q := fun os => (bodySpan os).map Prod.fst = placeOf os) rfl ?_ os
  intro os o ih
  rw [bodySpan_snoc, placeOf, List.foldl_append, ← placeOf, ← ih]
  simp only [List.foldl_cons, List.foldl_nil, firstBody]
  cases o.ev <;> first | rfl | (cases bodySpan os <;> rfl)

/-- What placeOf is. -/
theorem placeOf_find (os : List PObs) : placeOf os = (os.find? PObs.isBody).map PObs.loc := by
  have h : ∀ (os : List PObs) (f : Option Nat), os.foldl firstBody f = f.or ((os.find? PObs.isBody).map PObs.loc) := by
    intro os
    induction os with
    | nil => intro f; cases f <;> rfl
    | cons o os ih =>
      intro f
      rw [List.foldl_cons, ih, List.find?_cons]
      unfold firstBody PObs.isBody
      cases o.ev <;> cases f <;> rfl
  exact h os none

/-- **C98, for every parser.** pBody is NULL as long as no body data has been reported, and afterwards remains where the first body data was received. -/
theorem C98_first_body {w : World PLog σ} (hp : RecvPre strict P cfg T recv resp rh b rb w.mem) (hflag : ¬ headersOnly resp.respOptionFlags) (fuel : Nat) :
    ∃ res w' evs, HTTPClient_ReceiveAndParseHttpResponse P cfg fuel (some T) (some resp) (some rh) w = (res, w') ∧ w'.log = w.log ++ evs ∧
      ∀ st resp', res = .ok (st, resp') → st ≠ .networkError ∨ obsOf evs ≠ [] →
        resp'.pBody = ((obsOf evs).find? PObs.isBody).map PObs.loc := by
  obtain ⟨r, w', t0, tr, e, hl, hev, hfr, h⟩ := receive_spec hp fuel
  refine ⟨r, w', _, e, hl, ?_⟩
  intro st resp' hr hne
  rcases h with ⟨rfl, h1⟩ | ⟨lst, total, h, st, resp', rfl, h1, h2, h3⟩
  · cases hr
  simp only [Run.ok.injEq, Prod.mk.injEq] at hr
  obtain ⟨rfl, rfl⟩ := hr
  rcases returned h2 h3 with ⟨h4, _, _, h5⟩ | ⟨ph, base, lo, ht, hp1, hp2, h4, h5⟩
  · rcases hne with hne | hne
    · exact absurd h4 hne
    · exact absurd h5 hne
  have hnp : lst ≠ .parserPaused := fun h => hflag ((headersOnly_iff _).mp (ht.pausedAt (hp1.mp h)).1)
  rw [h4, if_neg hnp, ht.core.bodyPtr, placeOf_span, placeOf_find]

/-- From the run of the reference parser. -/
theorem place_returned {w w' : World PLog σ} {t0 : UInt32} {evs : List (Ev PLog)} {st : Status} {resp' : Resp σ} {fuel : Nat}
    (hp : RecvPre true httpParser cfg T recv resp rh b rb w.mem) (hflag : ¬ headersOnly resp.respOptionFlags)
    (e : HTTPClient_ReceiveAndParseHttpResponse httpParser cfg fuel (some T) (some resp) (some rh) w = (.ok (st, resp'), w'))
    (hl : w'.log = w.log ++ .time t0 :: evs) (hne : st ≠ .networkError) {v : View} {a : A} {o : Option SpanK}
    (hv : run (headersAnswer resp.respOptionFlags (startsHead w.mem rb)) 0 (View.empty, .live .start none) (received evs) = (v, .live a o)) :
    resp'.pBody = (prun (headersAnswer resp.respOptionFlags (startsHead w.mem rb)) 0 (none, .live .start none) (received evs)).1 := by
  obtain ⟨_, _, evs1, e1, l1, h98⟩ := C98_first_body hp hflag fuel
  rw [e] at e1; cases e1
  obtain rfl : Ev.time t0 :: evs = evs1 := List.append_cancel_left (hl.symm.trans l1)
  rw [h98 _ _ rfl (.inl hne), ← placeOf_find]
  have hrt : received (.time t0 :: evs) = received evs := rfl
  obtain ⟨er, f1, f2, f3, _, _, f7, f6⟩ := returned_fed hp e hl hne
  rw [hrt] at f1 f2
  generalize headersAnswer resp.respOptionFlags (startsHead w.mem rb) = hr at f1 hv
  have h2 := (run_placed (hr := hr) (received evs) 0 none View.empty (.live .start none) (by simp [View.empty])).2.1
  rw [hv] at h2
  have hfv := feed_g (G := bodyAcc) http_machine_ok none hr (calls (.time t0 :: evs))
  rw [show feedAll http.toParser = feedAll httpParser from rfl, f1, f2] at hfv
  rcases hz : prun hr 0 (none, .live .start none) (received evs) with ⟨s, y⟩
  rw [hz] at h2
  obtain rfl : y = .live a o := h2
  rw [show gRun bodyAcc http hr 0 (none, .live http.init none) (received evs) = (s, .live a o) from hz] at hfv
  rcases hfv with ⟨v', a, o, g1, _, _, g2, _⟩ | ⟨v', er', g1, _, g2, _⟩
  · obtain ⟨rfl, _⟩ := Prod.mk.inj g1
    exact g2
  · obtain ⟨_, h1⟩ := Prod.mk.inj g1; cases h1

/-- The position of the body in a well-formed response holds the first byte of the body; there is none exactly when the body is empty. -/
theorem C98_bodyAt {head : Bool} {r : Response} (ok : r.Ok head) :
    (∀ q, r.bodyAt = some q → r.head.length ≤ q ∧ r.bytes[q]? = r.content.data.head? ∧ r.content.data ≠ []) ∧
    (r.bodyAt = none → r.content.data = []) := by
  refine ⟨fun q hq => ?_, (no_body_at ok).mp⟩
  have hle : r.head.length ≤ q := by
    unfold Response.bodyAt at hq
    (repeat' split at hq) <;> cases hq <;> omega
  obtain ⟨pre, c, post, h1, rfl, h2, _⟩ := first_byte ok hq
  refine ⟨hle, ?_, ?_⟩
  · rw [h1, h2, List.getElem?_append_right (Nat.le_refl _)]; simp
  · intro h; rw [h] at h2; cases h2

/-- **C98, receiving.** For every well-formed response, of any size, and however much of it is received (in pieces of any size, with any delays): when a
call returns, pBody points to where the first byte of the body was received, and it is NULL if that byte was not received or there is no body. -/
theorem C98_receive {w : World PLog σ} {head : Bool} {r : Response} (hp : RecvPre true httpParser cfg T recv resp rh b rb w.mem)
    (ok : r.Ok head) (hreq : ReqIs head (headerBlock w.mem rh)) (hflag : ¬ headersOnly resp.respOptionFlags) (fuel : Nat) :
    ∃ res w' evs, HTTPClient_ReceiveAndParseHttpResponse httpParser cfg fuel (some T) (some resp) (some rh) w = (res, w') ∧
      w'.log = w.log ++ evs ∧
      ∀ st resp', res = .ok (st, resp') → st ≠ .networkError → received evs <+: r.bytes →
        ∀ q, resp'.pBody = some q ↔ r.bodyAt = some q ∧ q < (received evs).length := by
  obtain ⟨res, w', t0, evs, e, hl, _⟩ := C59_no_early_stop hp fuel
  refine ⟨res, w', _, e, hl, ?_⟩
  rintro st resp' rfl hne hpre q
  have hpre : received evs <+: r.bytes := hpre
  have hlive : ∃ v a o, run (answerTo head) 0 (View.empty, .live .start none) (received evs) = (v, .live a o) := by
    by_cases hall : received evs = r.bytes
    · obtain ⟨_, _, _, _, _, _, _, _, q1⟩ := response_run ok
      exact ⟨_, _, _, by rw [hall]; exact q1⟩
    · obtain ⟨v, a, o, q1, _⟩ := prefix_run ok hpre hall
      exact ⟨v, a, o, q1⟩
  obtain ⟨v, a, o, q1⟩ := hlive
  rw [← answer_of hp hreq hflag] at q1
  rw [place_returned hp hflag e hl hne q1, answer_of hp hreq hflag, response_place ok hpre, Option.filter_eq_some_iff]
  simp [show received (Ev.time t0 :: evs) = received evs from rfl]

/-- **C98, receiving a response whose body ends with the connection.** -/
theorem C98_until_close {w : World PLog σ} {r : Response} {data : Bytes} (hp : RecvPre true httpParser cfg T recv resp rh b rb w.mem)
    (ok : r.UntilClose) (hreq : ReqIs false (headerBlock w.mem rh)) (hflag : ¬ headersOnly resp.respOptionFlags) (fuel : Nat) :
    ∃ res w' evs, HTTPClient_ReceiveAndParseHttpResponse httpParser cfg fuel (some T) (some resp) (some rh) w = (res, w') ∧
      w'.log = w.log ++ evs ∧
      ∀ st resp', res = .ok (st, resp') → st ≠ .networkError → received evs <+: r.head ++ data →
        ∀ q, resp'.pBody = some q ↔ q = r.head.length ∧ q < (received evs).length := by
  obtain ⟨res, w', t0, evs, e, hl, _⟩ := C59_no_early_stop hp fuel
  refine ⟨res, w', _, e, hl, ?_⟩
  rintro st resp' rfl hne hpre q
  have hpre : received evs <+: r.head ++ data := hpre
  obtain ⟨v, a, o, q1, _⟩ := eof_run ok hpre
  rw [show CbRet.continue_ = answerTo false from rfl, ← answer_of hp hreq hflag] at q1
  rw [place_returned hp hflag e hl hne q1, answer_of hp hreq hflag, show answerTo false = CbRet.continue_ from rfl, eof_place ok hpre]
  rw [show received (Ev.time t0 :: evs) = received evs from rfl]
  split
  · constructor
    · intro h; cases h; exact ⟨rfl, by assumption⟩
    · rintro ⟨rfl, _⟩; rfl
  · constructor
    · intro h; cases h
    · rintro ⟨rfl, _⟩; contradiction

/-- From receiving to a whole exchange. -/
theorem place_send {w : World PLog σ} {head : Bool} {wire : Bytes} {Q : Nat → Nat → Prop}
    (hp : CallPre true httpParser cfg T send recv rh rb body n resp b w.mem) (hreq : ReqIs head (headerBlock w.mem rh)) (fuel : Nat)
    (hrecv : ∀ (w1 : World PLog σ) (rh1 : ReqHeaders), RecvPre true httpParser cfg T recv (withClock resp) rh1 b rb w1.mem →
      ReqIs head (headerBlock w1.mem rh1) →
      ∃ res w' evs, HTTPClient_ReceiveAndParseHttpResponse httpParser cfg fuel (some T) (some (withClock resp)) (some rh1) w1 = (res, w') ∧
        w'.log = w1.log ++ evs ∧
        ∀ st resp', res = .ok (st, resp') → st ≠ .networkError → received evs <+: wire → ∀ q, resp'.pBody = some q ↔ Q q (received evs).length) :
    ∃ res w' evs, HTTPClient_Send httpParser cfg fuel (some T) (some rh) body n (some resp) flags w = (res, w') ∧ w'.log = w.log ++ evs ∧
      ∀ st rh' resp', res = .ok (st, rh', some resp') → st ≠ .networkError → received evs <+: wire → received evs ≠ [] →
        ∀ q, resp'.pBody = some q ↔ Q q (received evs).length := by
  have hblk : 16 ≤ (headerBlock w.mem rh).length := by
    have h1 := hp.reqLen; have h2 := hp.reqRoom; have h3 := hp.reqLe
    unfold headerBlock; rw [hp.reqBuf]; simp only [List.length_take]; omega
  rcases send_spec (flags := flags) hp fuel with ⟨h0, h1⟩ | ⟨_, s1, m1, rh', evs1, hfr, hb, hbl, hB, hr, ⟨q, h2, h1, hph⟩ | ⟨h1, hph⟩⟩
  · exact ⟨_, _, [], h1, by simp, fun st rh' resp' _ _ _ hh => absurd rfl hh⟩
  · refine ⟨_, _, evs1, h1, rfl, fun st rh' resp' _ _ _ hh => ?_⟩
    rw [(sending_kinds hph.kinds).2.2.2] at hh
    exact absurd rfl hh
  · obtain ⟨k1, k2, _, k4⟩ := sending_kinds hph.kinds
    obtain ⟨res, w', evs, e, hl, hmain⟩ := hrecv ⟨s1, m1, w.log ++ evs1⟩ rh' hr (by dsimp only; rw [hB]; exact reqIs_wire hblk _ _ hreq)
    rw [h1]
    simp only [M.bind_apply, e]
    refine ⟨(match res with | .ok a => .ok (a.1, some rh', some a.2) | .fault f => .fault f | .more => .more), w', evs1 ++ evs, ?_, ?_, ?_⟩
    · cases res <;> rfl
    · rw [hl]; simp
    · rintro st rh'' resp' hres hne hpre _
      rw [received_append, k4, List.nil_append] at hpre ⊢
      cases res with
      | fault f => cases hres
      | more => cases hres
      | ok a =>
        obtain ⟨st1, resp1⟩ := a
        cases hres
        exact hmain _ _ rfl hne hpre

/-- **C98.** For every request and every well-formed response to it, of any size, and however much of it is received (in pieces of any size, with any
delays): when a call of HTTPClient_Send returns after receiving something, pBody points to where the first byte of the body was received, and it is
NULL if that byte was not received or there is no body. -/
theorem C98_body_place {w : World PLog σ} {head : Bool} {r : Response}
    (hp : CallPre true httpParser cfg T send recv rh rb body n resp b w.mem) (ok : r.Ok head) (hreq : ReqIs head (headerBlock w.mem rh))
    (hflag : ¬ headersOnly resp.respOptionFlags) (fuel : Nat) :
    ∃ res w' evs, HTTPClient_Send httpParser cfg fuel (some T) (some rh) body n (some resp) flags w = (res, w') ∧ w'.log = w.log ++ evs ∧
      ∀ st rh' resp', res = .ok (st, rh', some resp') → st ≠ .networkError → received evs <+: r.bytes → received evs ≠ [] →
        ∀ q, resp'.pBody = some q ↔ r.bodyAt = some q ∧ q < (received evs).length :=
  place_send (Q := fun q l => r.bodyAt = some q ∧ q < l) hp hreq fuel fun _ _ h1 h2 => C98_receive h1 ok h2 hflag fuel

/-- **C98, for a response whose body ends with the connection.** -/
theorem C98_body_place_open {w : World PLog σ} {r : Response} {data : Bytes}
    (hp : CallPre true httpParser cfg T send recv rh rb body n resp b w.mem) (ok : r.UntilClose) (hreq : ReqIs false (headerBlock w.mem rh))
    (hflag : ¬ headersOnly resp.respOptionFlags) (fuel : Nat) :
    ∃ res w' evs, HTTPClient_Send httpParser cfg fuel (some T) (some rh) body n (some resp) flags w = (res, w') ∧ w'.log = w.log ++ evs ∧
      ∀ st rh' resp', res = .ok (st, rh', some resp') → st ≠ .networkError → received evs <+: r.head ++ data → received evs ≠ [] →
        ∀ q, resp'.pBody = some q ↔ q = r.head.length ∧ q < (received evs).length :=
  place_send (Q := fun q l => q = r.head.length ∧ q < l) hp hreq fuel fun _ _ h1 h2 => C98_until_close h1 ok h2 hflag fuel

/-! ### Non-vacuity -/

/-- All hypotheses of C98 hold for a PUT request and a chunked response; its body begins after the first size line. -/
example (q : Nat) (hq : q = 0 ∨ q = 1) (t : Nat) : ∃ rh' resp' w',
    HTTPClient_Send httpParser exCfg 300 (some (peerT (wireRequest xMem xReq (some 2) 5 0) exResponse.bytes)) (some xReq) (some 2) 5
      (some (peerResp q)) 0 ⟨(t, [], []), xMem, []⟩ = (.ok (.success, some rh', some resp'), w') ∧
    exResponse.head.length < exResponse.bodyAt.getD 0 ∧ resp'.pBody = exResponse.bodyAt := by
  obtain ⟨rh', resp', w', evs, e, hl, _, _, _, h4, _⟩ := C58_exchange (w := (⟨(t, [], []), xMem, []⟩ : World PLog PeerEnv))
    (flags := 0) (fuel := 300) (peerCallPre _ _ q hq) exResponse_ok (show ¬ ascii "HEAD" <+: headerBlock xMem xReq by decide +kernel)
    (show ¬ ((0 : UInt32).toNat % 2 = 1) by decide) (show exResponse.bytes.length ≤ 200 by decide +kernel)
    (show (wireHeaders (headerBlock xMem xReq) 5 (UInt32.toNat 0)).length ≤ 60 by decide +kernel) (peer_ok _ _ q) rfl (by decide) (by decide)
    (show 200 < 300 by decide)
  obtain ⟨_, _, evs', e', hl', h⟩ := C98_body_place (w := (⟨(t, [], []), xMem, []⟩ : World PLog PeerEnv)) (flags := 0)
    (peerCallPre (wireRequest xMem xReq (some 2) 5 0) exResponse.bytes q hq) exResponse_ok
    (show ¬ ascii "HEAD" <+: headerBlock xMem xReq by decide +kernel) (show ¬ ((0 : UInt32).toNat % 2 = 1) by decide) 300
  rw [show HTTPClient_Send httpParser exCfg 300 (some (peerT (wireRequest xMem xReq (some 2) 5 0) exResponse.bytes)) (some xReq) (some 2) 5
      (some (peerResp q)) 0 ⟨(t, [], []), xMem, []⟩ = _ from e] at e'
  cases e'
  obtain rfl : evs = evs' := List.append_cancel_left (hl.symm.trans hl')
  have h5 := h _ _ _ rfl (by decide) (by rw [h4]; exact List.prefix_refl _) (by rw [h4]; decide +kernel)
  rw [h4] at h5
  refine ⟨rh', resp', w', e, by decide +kernel, ?_⟩
  have hb : ∃ p, exResponse.bodyAt = some p ∧ p < exResponse.bytes.length := by
    have h : exResponse.bodyAt.any (fun p => decide (p < exResponse.bytes.length)) = true := by decide +kernel
    cases hx : exResponse.bodyAt with
    | none => rw [hx] at h; cases h
    | some p => rw [hx] at h; exact ⟨p, rfl, by simpa using h⟩
  obtain ⟨p, hp1, hp2⟩ := hb
  rw [hp1]
  exact (h5 p).mpr ⟨hp1, hp2⟩

/-- pBody after a run. -/
def exPlace (x : Run (Status × Resp Script) × World PLog Script) : Option (Option Nat) :=
  match x.1 with
  | .ok (_, r) => some r.pBody
  | _ => none

/-- With Content-Length: in one piece and byte by byte. -/
example : exPlace (exRun exGet 200 0 [exLength.bytes]) = some exLength.bodyAt ∧ exLength.bodyAt.isSome := by decide +kernel
example : exPlace (exRun exGet 200 0 (exLength.bytes.map fun c => [c])) = some exLength.bodyAt := by decide +kernel
/-- All of the header section and nothing of the body. -/
example : exPlace (exRun exGet 200 0 [exLength.head]) = some none := by decide +kernel

end CoreHttp.Props

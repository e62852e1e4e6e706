import Verif.Ref.Section
import Verif.Spec.Section
import Verif.Props.HeadersOnly
import Verif.Props.UntilClose
import Verif.Props.ReceiveEx

/-!
# Property C71: what pHeaders and headersLen denote

`HeadersAt`: Verif/Spec/Section.lean. The parser is the reference parser.
-/

namespace CoreHttp.Props
open CoreHttp Spec Ref Machine
variable {σ : Type} {cfg : Cfg} {T : Transport σ} {send : σ → Bytes → Int × σ} {recv : σ → Nat → Int × Bytes × σ}
  {resp : Resp σ} {rh : ReqHeaders} {b rb : Nat} {body : Option Nat} {n : Nat} {flags : UInt32}

/-- The locations of a list of events. -/
def secOf (os : List PObs) : Sec := os.foldl Sec.upd Sec.none_

theorem secOf_snoc (os : List PObs) (o : PObs) : secOf (os ++ [o]) = (secOf os).upd o := by simp [secOf]

/-- What the trace says about the location of the header section. -/
theorem scan_sec (evs : List (Ev PLog)) : EachEv (EvGood L) evs →
    (hdrScan evs).first = (secOf (obsOf evs)).first ∧ (hdrScan evs).lastEnd = (secOf (obsOf evs)).last ∧
    ((hdrScan evs).callAt = 0 ∨ ∃ pre d post, evs = pre ++ .parserCall (hdrScan evs).callAt d :: post) ∧
    (secOf (obsOf evs)).msgs = (view (obsOf evs)).messages ∧ (secOf (obsOf evs)).fin.map (·.2.2) = (view (obsOf evs)).headersEnd ∧
    ∀ f l N, (secOf (obsOf evs)).fin = some (f, l, N) → ∃ c, c < N ∧ (c = 0 ∨ ∃ pre d post, evs = pre ++ .parserCall c d :: post) ∧
      (hdrScan evs).len = match f with | none => 0 | some p => max l c - p := by
  refine snocInduction (Q := fun evs => EachEv (EvGood L) evs →
    (hdrScan evs).first = (secOf (obsOf evs)).first ∧ (hdrScan evs).lastEnd = (secOf (obsOf evs)).last ∧
    ((hdrScan evs).callAt = 0 ∨ ∃ pre d post, evs = pre ++ .parserCall (hdrScan evs).callAt d :: post) ∧
    (secOf (obsOf evs)).msgs = (view (obsOf evs)).messages ∧ (secOf (obsOf evs)).fin.map (·.2.2) = (view (obsOf evs)).headersEnd ∧
    ∀ f l N, (secOf (obsOf evs)).fin = some (f, l, N) → ∃ c, c < N ∧ (c = 0 ∨ ∃ pre d post, evs = pre ++ .parserCall c d :: post) ∧
      (hdrScan evs).len = match f with | none => 0 | some p => max l c - p) ?_ ?_ evs
  · intro _
    exact ⟨rfl, rfl, .inl rfl, rfl, rfl, fun f l N h => by cases h⟩
  intro es e ih h
  obtain ⟨i1, i2, i3, i4, i5, i6⟩ := ih fun pre x post hx => h pre x (post ++ [e]) (by rw [hx]; simp)
  have he := h es e [] rfl
  have hext : ∀ c, (c = 0 ∨ ∃ pre d post, es = pre ++ .parserCall c d :: post) → (c = 0 ∨ ∃ pre d post, es ++ [e] = pre ++ .parserCall c d :: post) := by
    rintro c (h | ⟨pre, d, post, h⟩)
    · exact .inl h
    · exact .inr ⟨pre, d, post ++ [e], by rw [h]; simp⟩
  have hsame : (hdrScan es).step e = hdrScan es → obsOf (es ++ [e]) = obsOf es → _ := fun (h1 : (hdrScan es).step e = hdrScan es) (h2 : obsOf (es ++ [e]) = obsOf es) =>
    (show (hdrScan (es ++ [e])).first = (secOf (obsOf (es ++ [e]))).first ∧ (hdrScan (es ++ [e])).lastEnd = (secOf (obsOf (es ++ [e]))).last ∧
      ((hdrScan (es ++ [e])).callAt = 0 ∨ ∃ pre d post, es ++ [e] = pre ++ .parserCall (hdrScan (es ++ [e])).callAt d :: post) ∧
      (secOf (obsOf (es ++ [e]))).msgs = (view (obsOf (es ++ [e]))).messages ∧ (secOf (obsOf (es ++ [e]))).fin.map (·.2.2) = (view (obsOf (es ++ [e]))).headersEnd ∧
      ∀ f l N, (secOf (obsOf (es ++ [e]))).fin = some (f, l, N) → ∃ c, c < N ∧ (c = 0 ∨ ∃ pre d post, es ++ [e] = pre ++ .parserCall c d :: post) ∧
        (hdrScan (es ++ [e])).len = match f with | none => 0 | some p => max l c - p by
      rw [hdrScan_snoc, h1, h2]
      refine ⟨i1, i2, hext _ i3, i4, i5, ?_⟩
      intro f l N hf
      obtain ⟨c, c1, c2, c3⟩ := i6 f l N hf
      exact ⟨c, c1, hext _ c2, c3⟩)
  cases e with
  | parserCall off d =>
    have h2 : obsOf (es ++ [Ev.parserCall off d]) = obsOf es := by simp [obsOf]
    rw [hdrScan_snoc, h2]
    refine ⟨i1, i2, .inr ⟨es, d, [], rfl⟩, i4, i5, ?_⟩
    intro f l N hf
    obtain ⟨c, c1, c2, c3⟩ := i6 f l N hf
    exact ⟨c, c1, hext _ c2, c3⟩
  | parserEvent q =>
    cases q with
    | obs o =>
      have h2 : obsOf (es ++ [Ev.parserEvent (.obs o)]) = obsOf es ++ [o] := by simp [obsOf]
      rw [hdrScan_snoc, h2, secOf_snoc, view_snoc]
      have hca : ((hdrScan es).step (.parserEvent (.obs o))).callAt = (hdrScan es).callAt := hdrScan_obs_callAt _ _
      rw [hca]
      have hlen : (∀ at_ cl cc ka, o.ev ≠ .headersComplete at_ cl cc ka) → ((hdrScan es).obs o).len = (hdrScan es).len ∧
          ((secOf (obsOf es)).upd o).fin = (secOf (obsOf es)).fin ∧ ((view (obsOf es)).step o).headersEnd = (view (obsOf es)).headersEnd := by
        intro hne
        unfold HdrScan.obs Sec.upd View.step
        cases hev : o.ev <;> first | exact absurd hev (hne _ _ _ _) | simp
      have h1 : ((hdrScan es).obs o).first = ((secOf (obsOf es)).upd o).first ∧ ((hdrScan es).obs o).lastEnd = ((secOf (obsOf es)).upd o).last := by
        unfold HdrScan.obs Sec.upd
        cases o.ev <;> simp [i1, i2]
      have h4 : ((secOf (obsOf es)).upd o).msgs = ((view (obsOf es)).step o).messages := by
        unfold Sec.upd View.step
        cases o.ev <;> simp [i4]
      refine ⟨h1.1, h1.2, hext _ i3, h4, ?_, ?_⟩
      · by_cases hc : ∃ at_ cl cc ka, o.ev = .headersComplete at_ cl cc ka
        · obtain ⟨at_, cl, cc, ka, hc⟩ := hc
          unfold Sec.upd View.step
          simp only [hc]
          rfl
        · have := hlen fun at_ cl cc ka h => hc ⟨at_, cl, cc, ka, h⟩
          rw [this.2.1, this.2.2]; exact i5
      · intro f l N hf
        by_cases hc : ∃ at_ cl cc ka, o.ev = .headersComplete at_ cl cc ka
        · have hgood := he.2.2 hc
          obtain ⟨at_, cl, cc, ka, hc⟩ := hc
          unfold Sec.upd at hf
          simp only [hc, Option.some.injEq, Prod.mk.injEq] at hf
          obtain ⟨rfl, rfl, rfl⟩ := hf
          refine ⟨(hdrScan es).callAt, hgood, hext _ i3, ?_⟩
          show ((hdrScan es).obs o).len = _
          unfold HdrScan.obs
          simp only [hc, i1, i2]
          cases (secOf (obsOf es)).first <;> rfl
        · have := hlen fun at_ cl cc ka h => hc ⟨at_, cl, cc, ka, h⟩
          rw [this.2.1] at hf
          obtain ⟨c, c1, c2, c3⟩ := i6 f l N hf
          exact ⟨c, c1, hext _ c2, this.1.trans c3⟩
    | _ => exact hsame rfl (by simp [obsOf])
  | _ => exact hsame rfl (by simp [obsOf])

theorem section_text (fs : List Field) (h : fs ≠ []) : section_ fs = headerText fs ++ (crlf ++ crlf) := by
  induction fs with
  | nil => exact absurd rfl h
  | cons f fs ih =>
    cases fs with
    | nil => simp [section_, headerText, Field.line, Field.text]
    | cons g fs =>
      have := ih (by simp)
      have h1 : section_ (f :: g :: fs) = f.line ++ section_ (g :: fs) := by simp [section_]
      rw [h1, this]
      simp [headerText, Field.line, Field.text]

/-- What pHeaders and headersLen denote when everything received begins with the header section of `r`. -/
theorem headers_at {w w' : World PLog σ} {r : Response} {t0 : UInt32} {evs : List (Ev PLog)} {st : Status} {resp' : Resp σ} {fuel : Nat}
    (hp : RecvPre true httpParser cfg T recv resp rh b rb w.mem)
    (hcode : r.code ≤ 999) (hreason : ∀ c ∈ r.reason, c ≠ 13 ∧ c ≠ 10) (hfields : ∀ f ∈ r.fields, FieldOk f)
    (e : HTTPClient_ReceiveAndParseHttpResponse httpParser cfg fuel (some T) (some resp) (some rh) w = (.ok (st, resp'), w'))
    (hl : w'.log = w.log ++ .time t0 :: evs) (hne : st ≠ .networkError) (hhd : r.head <+: received evs) {v : View} {x : St A}
    (hv : run (headersAnswer resp.respOptionFlags (startsHead w.mem rb)) 0 (View.empty, .live .start none) (received evs) = (v, x))
    (hx : ∀ e, x = .dead e → e = .paused) (hm : v.messages ≤ 1) (hN : v.headersEnd = some r.head.length) :
    HeadersAt r evs w'.mem resp' := by
  have hrt : received (.time t0 :: evs) = received evs := rfl
  obtain ⟨er, f1, f2, f3, _, _, f7, f6⟩ := returned_fed hp e hl hne
  rw [hrt] at f1 f2
  generalize headersAnswer resp.respOptionFlags (startsHead w.mem rb) = hr at f1 hv
  have hview : view (obsOf (.time t0 :: evs)) = v := by
    have hfv := feed_view http_machine_ok hr (calls (.time t0 :: evs))
    rw [show feedAll http.toParser = feedAll httpParser from rfl, f1, f2] at hfv
    rw [show absRun http hr 0 (View.empty, .live http.init none) (received evs) = (v, x) from hv] at hfv
    rcases hfv with ⟨v', a, o, g1, _, _, g2, _⟩ | ⟨v', er', g1, _, g2, _⟩
    · obtain ⟨rfl, _⟩ := Prod.mk.inj g1; exact g2
    · obtain ⟨rfl, h1⟩ := Prod.mk.inj g1; exact g2 (.inl (hx _ h1))
  have hsec : srun hr 0 (Sec.none_, .live .start none) (received evs) = (secOf (obsOf (.time t0 :: evs)), x) := by
    have h2 := srun_state (hr := hr) (received evs) 0 Sec.none_ View.empty (.live .start none)
    rw [hv] at h2
    have hfv := feed_g (G := secAcc) http_machine_ok Sec.none_ hr (calls (.time t0 :: evs))
    rw [show feedAll http.toParser = feedAll httpParser from rfl, f1, f2] at hfv
    rcases hz : srun hr 0 (Sec.none_, .live .start none) (received evs) with ⟨s, y⟩
    rw [hz] at h2
    obtain rfl : y = x := h2
    rw [show gRun secAcc http hr 0 (Sec.none_, .live http.init none) (received evs) = (s, y) from hz] at hfv
    rcases hfv with ⟨v', a, o, g1, _, _, g2, _⟩ | ⟨v', er', g1, _, g2, _⟩
    · obtain ⟨rfl, _⟩ := Prod.mk.inj g1
      rw [show secOf (obsOf (.time t0 :: evs)) = s from g2]
    · obtain ⟨rfl, h1⟩ := Prod.mk.inj g1
      rw [show secOf (obsOf (.time t0 :: evs)) = s from g2 (.inl (hx _ h1))]
  obtain ⟨q, hq⟩ := id hhd
  obtain ⟨r1, w1, t1, tr1, e1, l1, hev, _⟩ := receive_spec hp fuel
  rw [e] at e1; cases e1
  have h1 : Ev.time t0 :: evs = Ev.time t1 :: tr1 := List.append_cancel_left (hl.symm.trans l1)
  rw [← h1] at hev
  obtain ⟨s1, s2, s3, s4, s5, s6⟩ := scan_sec _ hev
  rw [hview] at s4 s5
  generalize secOf (obsOf (.time t0 :: evs)) = s at s1 s2 s4 s5 s6 hsec
  have hfin : s.fin ≠ none := by
    intro h; rw [h, hN] at s5; cases s5
  rw [← hq] at hsec
  obtain ⟨k1, k2, l, N, k3, k4⟩ := section_run (hr := hr) hcode hreason hfields (q := q) (by rw [hsec]; show s.msgs ≤ 1; omega) s x hsec hx hfin
  have hNN : N = r.head.length := by rw [k3, hN] at s5; exact Option.some.inj s5
  subst hNN
  obtain ⟨c, c1, c2, c3⟩ := s6 _ _ _ k3
  obtain ⟨_, _, evs1, e1, l1, h43⟩ := C43_headers_location_partial hp fuel
  rw [e] at e1; cases e1
  obtain rfl : Ev.time t0 :: evs = evs1 := List.append_cancel_left (hl.symm.trans l1)
  obtain ⟨p1, p2⟩ := h43 _ _ rfl (.inl hne)
  rw [s1] at p1
  rw [c3] at p2
  obtain ⟨_, _, evs1, e1, l1, h41⟩ := C41_header_section_kept hp fuel
  rw [e] at e1; cases e1
  obtain rfl : Ev.time t0 :: evs = evs1 := List.append_cancel_left (hl.symm.trans l1)
  obtain ⟨_, m1, _⟩ := h41 _ _ rfl (by rw [hview]; exact hm) r.head.length (by rw [hview]; exact hN)
  rw [hrt, ← hq, List.take_left] at m1
  refine ⟨fun hf => ?_, fun hf => ?_⟩
  · rw [if_pos hf] at k2
    rw [k2] at p1 p2
    exact ⟨p1, p2⟩
  · rw [if_neg hf] at k2
    rw [k2] at p1 p2
    have hl4 := k4 hf
    have hhead : r.head = r.statusLine ++ (headerText r.fields ++ (crlf ++ crlf)) := by
      rw [← section_text _ hf]; simp [Response.head, Response.statusLine]
    have hlen : r.head.length = r.statusLine.length + (headerText r.fields).length + 4 := by rw [hhead]; simp [crlf]; omega
    have hp2 : resp'.headersLen = max l c - r.statusLine.length := p2
    have hbuf : resp'.pBuffer = some b := by rw [(receive_setUp hp e).1, hp.buf]
    refine ⟨p1, max l c - l, by omega, ?_, by omega, ?_⟩
    · unfold headerBytes
      rw [hbuf, p1]
      simp only []
      have hk : resp'.headersLen = (headerText r.fields).length + (max l c - l) := by omega
      have hs : slice (w'.mem b) r.statusLine.length resp'.headersLen = slice r.head r.statusLine.length resp'.headersLen := by
        rw [← m1]
        unfold slice
        rw [List.drop_take, List.take_take, Nat.min_eq_left (by omega)]
      rw [hs, hk]
      generalize max l c - l = k
      rw [hhead]
      unfold slice
      rw [List.drop_left, List.take_length_add_append]
    · intro hk
      have hcl : max l c = c := by omega
      rcases c2 with rfl | ⟨pre, d, post, h⟩
      · omega
      · rw [show r.statusLine.length + (headerText r.fields).length + (max l c - l) = c by omega]
        rcases split_cons h with ⟨_, h4, _⟩ | ⟨pre', rfl, h4⟩
        · cases h4
        · exact ⟨pre', d, post, h4⟩

theorem _root_.CoreHttp.Spec.HeadersAt.append {r : Response} {evs : List (Ev PLog)} {m : Mem} {resp' : Resp σ} (h : HeadersAt r evs m resp') (p : List (Ev PLog)) :
    HeadersAt r (p ++ evs) m resp' := by
  refine ⟨h.1, fun hf => ?_⟩
  obtain ⟨h1, k, h2, h3, h4, h5⟩ := h.2 hf
  refine ⟨h1, k, h2, h3, h4, fun hk => ?_⟩
  obtain ⟨pre, d, post, h6⟩ := h5 hk
  exact ⟨p ++ pre, d, post, by rw [h6]; simp⟩

theorem _root_.CoreHttp.Spec.HeadersAt.cons {r : Response} {evs : List (Ev PLog)} {m : Mem} {resp' : Resp σ} (h : HeadersAt r evs m resp') (x : Ev PLog) :
    HeadersAt r (x :: evs) m resp' := h.append [x]

/-- **C71, receiving.** For every well-formed response, of any size, complete or not, all options, and however much of it is received (in pieces of any
size, with any delays): when a call returns and all of the header section has been received, pHeaders and headersLen delimit the header
fields as sent. -/
theorem C71_receive {w : World PLog σ} {head : Bool} {r : Response} (hp : RecvPre true httpParser cfg T recv resp rh b rb w.mem)
    (ok : r.Ok head) (hreq : ReqIs head (headerBlock w.mem rh)) (fuel : Nat) :
    ∃ res w' evs, HTTPClient_ReceiveAndParseHttpResponse httpParser cfg fuel (some T) (some resp) (some rh) w = (res, w') ∧
      w'.log = w.log ++ evs ∧
      ∀ st resp', res = .ok (st, resp') → st ≠ .networkError → received evs <+: r.bytes → r.head <+: received evs → HeadersAt r evs w'.mem resp' := by
  obtain ⟨res, w', t0, evs, e, hl, _⟩ := C59_no_early_stop hp fuel
  refine ⟨res, w', _, e, hl, ?_⟩
  rintro st resp' rfl hne hpre hhd
  have hhd : r.head <+: received evs := hhd
  have hpre : received evs <+: r.bytes := hpre
  by_cases hflag : headersOnly resp.respOptionFlags
  · obtain ⟨q, hq⟩ := id hhd
    have hv := pause_run ok q
    rw [hq, ← answer_flag hflag (startsHead w.mem rb)] at hv
    exact (headers_at hp ok.code.2 ok.reason ok.fields e hl hne hhd hv (fun e h => by cases h; rfl) (Nat.le_refl 1) rfl).cons _
  · obtain ⟨_, p2, _, _, _, p6⟩ := part_run ok hpre
    have hlive : ∃ v a o, run (answerTo head) 0 (View.empty, .live .start none) (received evs) = (v, .live a o) := by
      by_cases hall : received evs = r.bytes
      · obtain ⟨_, _, _, _, _, _, _, _, q1⟩ := response_run ok
        exact ⟨_, _, _, by rw [hall]; exact q1⟩
      · obtain ⟨v, a, o, q1, _⟩ := prefix_run ok hpre hall
        exact ⟨v, a, o, q1⟩
    obtain ⟨v, a, o, q1⟩ := hlive
    rw [q1] at p2 p6
    exact (headers_at hp ok.code.2 ok.reason ok.fields e hl hne hhd
      (by rw [answer_of hp hreq hflag]; exact q1) (fun e h => by cases h) p6 (p2 hhd).headersEnd).cons _

/-- **C71, receiving a response whose body ends with the connection.** -/
theorem C71_until_close {w : World PLog σ} {r : Response} {data : Bytes} (hp : RecvPre true httpParser cfg T recv resp rh b rb w.mem)
    (ok : r.UntilClose) (hreq : ReqIs false (headerBlock w.mem rh)) (hflag : ¬ headersOnly resp.respOptionFlags) (fuel : Nat) :
    ∃ res w' evs, HTTPClient_ReceiveAndParseHttpResponse httpParser cfg fuel (some T) (some resp) (some rh) w = (res, w') ∧
      w'.log = w.log ++ evs ∧
      ∀ st resp', res = .ok (st, resp') → st ≠ .networkError → received evs <+: r.head ++ data → r.head <+: received evs → HeadersAt r evs w'.mem resp' := by
  obtain ⟨res, w', t0, evs, e, hl, _⟩ := C59_no_early_stop hp fuel
  refine ⟨res, w', _, e, hl, ?_⟩
  rintro st resp' rfl hne hpre hhd
  have hhd : r.head <+: received evs := hhd
  have hpre : received evs <+: r.head ++ data := hpre
  obtain ⟨v, a, o, q1, _, _, p2, _, _, _, p6⟩ := eof_run ok hpre
  exact (headers_at hp ok.code.2 ok.reason ok.fields e hl hne hhd
    (by rw [answer_of hp hreq hflag]; exact q1) (fun e h => by cases h) p6 (p2 hhd).headersEnd).cons _

/-- From receiving to a whole exchange. -/
theorem headers_at_send {w : World PLog σ} {head : Bool} {r : Response} {wire : Bytes}
    (hp : CallPre true httpParser cfg T send recv rh rb body n resp b w.mem) (hreq : ReqIs head (headerBlock w.mem rh)) (fuel : Nat)
    (hrecv : ∀ (w1 : World PLog σ) (rh1 : ReqHeaders), RecvPre true httpParser cfg T recv (withClock resp) rh1 b rb w1.mem →
      ReqIs head (headerBlock w1.mem rh1) →
      ∃ res w' evs, HTTPClient_ReceiveAndParseHttpResponse httpParser cfg fuel (some T) (some (withClock resp)) (some rh1) w1 = (res, w') ∧
        w'.log = w1.log ++ evs ∧
        ∀ st resp', res = .ok (st, resp') → st ≠ .networkError → received evs <+: wire → r.head <+: received evs → HeadersAt r evs w'.mem resp') :
    ∃ res w' evs, HTTPClient_Send httpParser cfg fuel (some T) (some rh) body n (some resp) flags w = (res, w') ∧ w'.log = w.log ++ evs ∧
      ∀ st rh' resp', res = .ok (st, rh', some resp') → st ≠ .networkError → received evs <+: wire → r.head <+: received evs →
        HeadersAt r evs w'.mem resp' := by
  have hblk : 16 ≤ (headerBlock w.mem rh).length := by
    have h1 := hp.reqLen; have h2 := hp.reqRoom; have h3 := hp.reqLe
    unfold headerBlock; rw [hp.reqBuf]; simp only [List.length_take]; omega
  have hnil : ¬ r.head <+: ([] : Bytes) := by
    intro h
    have := h.length_le
    unfold Response.head section_ crlf at this
    simp at this
  rcases send_spec (flags := flags) hp fuel with ⟨h0, h1⟩ | ⟨_, s1, m1, rh', evs1, hfr, hb, hbl, hB, hr, ⟨q, h2, h1, hph⟩ | ⟨h1, hph⟩⟩
  · exact ⟨_, _, [], h1, by simp, fun st rh' resp' _ _ _ hh => absurd hh hnil⟩
  · refine ⟨_, _, evs1, h1, rfl, fun st rh' resp' _ _ _ hh => ?_⟩
    rw [(sending_kinds hph.kinds).2.2.2] at hh
    exact absurd hh hnil
  · obtain ⟨k1, k2, _, k4⟩ := sending_kinds hph.kinds
    obtain ⟨res, w', evs, e, hl, hmain⟩ := hrecv ⟨s1, m1, w.log ++ evs1⟩ rh' hr (by dsimp only; rw [hB]; exact reqIs_wire hblk _ _ hreq)
    rw [h1]
    simp only [M.bind_apply, e]
    refine ⟨(match res with | .ok a => .ok (a.1, some rh', some a.2) | .fault f => .fault f | .more => .more), w', evs1 ++ evs, ?_, ?_, ?_⟩
    · cases res <;> rfl
    · rw [hl]; simp
    · rintro st rh'' resp' hres hne hpre hhd
      rw [received_append, k4, List.nil_append] at hhd hpre
      cases res with
      | fault f => cases hres
      | more => cases hres
      | ok a =>
        obtain ⟨st1, resp1⟩ := a
        cases hres
        exact (hmain _ _ rfl hne hpre hhd).append _

/-- **C71.** For every request and every well-formed response to it, of any size, complete or not, all options, and however much of it is received
(in pieces of any size, with any delays): when a call of HTTPClient_Send returns and all of the header section has been received,
pHeaders and headersLen delimit the header fields as sent. -/
theorem C71_headers_denoted {w : World PLog σ} {head : Bool} {r : Response}
    (hp : CallPre true httpParser cfg T send recv rh rb body n resp b w.mem) (ok : r.Ok head) (hreq : ReqIs head (headerBlock w.mem rh)) (fuel : Nat) :
    ∃ res w' evs, HTTPClient_Send httpParser cfg fuel (some T) (some rh) body n (some resp) flags w = (res, w') ∧ w'.log = w.log ++ evs ∧
      ∀ st rh' resp', res = .ok (st, rh', some resp') → st ≠ .networkError → received evs <+: r.bytes → r.head <+: received evs →
        HeadersAt r evs w'.mem resp' :=
  headers_at_send hp hreq fuel fun _ _ h1 h2 => C71_receive h1 ok h2 fuel

/-- **C71, for a response whose body ends with the connection.** -/
theorem C71_headers_denoted_open {w : World PLog σ} {r : Response} {data : Bytes}
    (hp : CallPre true httpParser cfg T send recv rh rb body n resp b w.mem) (ok : r.UntilClose) (hreq : ReqIs false (headerBlock w.mem rh))
    (hflag : ¬ headersOnly resp.respOptionFlags) (fuel : Nat) :
    ∃ res w' evs, HTTPClient_Send httpParser cfg fuel (some T) (some rh) body n (some resp) flags w = (res, w') ∧ w'.log = w.log ++ evs ∧
      ∀ st rh' resp', res = .ok (st, rh', some resp') → st ≠ .networkError → received evs <+: r.head ++ data → r.head <+: received evs →
        HeadersAt r evs w'.mem resp' :=
  headers_at_send hp hreq fuel fun _ _ h1 h2 => C71_until_close h1 ok h2 hflag fuel

/-! ### Non-vacuity -/

/-- All hypotheses of C71 hold for a PUT request and a chunked response. -/
example (q : Nat) (hq : q = 0 ∨ q = 1) (t : Nat) : ∃ rh' resp' w' evs k,
    HTTPClient_Send httpParser exCfg 300 (some (peerT (wireRequest xMem xReq (some 2) 5 0) exResponse.bytes)) (some xReq) (some 2) 5
      (some (peerResp q)) 0 ⟨(t, [], []), xMem, []⟩ = (.ok (.success, some rh', some resp'), w') ∧ w'.log = evs ∧
    resp'.pHeaders = some 30 ∧ k ≤ 3 ∧ resp'.headersLen = 57 + k ∧
    headerBytes w'.mem resp' = ascii "Server: x y\r\nTRANSFER-encoding:\tChunked\r\nConnection:close" ++ (ascii "\r\n\r\n").take k := by
  obtain ⟨rh', resp', w', evs, e, hl, _, _, _, h4, _⟩ := C58_exchange (w := (⟨(t, [], []), xMem, []⟩ : World PLog PeerEnv))
    (flags := 0) (fuel := 300) (peerCallPre _ _ q hq) exResponse_ok (show ¬ ascii "HEAD" <+: headerBlock xMem xReq by decide +kernel)
    (show ¬ ((0 : UInt32).toNat % 2 = 1) by decide) (show exResponse.bytes.length ≤ 200 by decide +kernel)
    (show (wireHeaders (headerBlock xMem xReq) 5 (UInt32.toNat 0)).length ≤ 60 by decide +kernel) (peer_ok _ _ q) rfl (by decide) (by decide)
    (show 200 < 300 by decide)
  obtain ⟨_, _, evs', e', hl', h⟩ := C71_headers_denoted (w := (⟨(t, [], []), xMem, []⟩ : World PLog PeerEnv)) (flags := 0)
    (peerCallPre (wireRequest xMem xReq (some 2) 5 0) exResponse.bytes q hq) exResponse_ok
    (show ¬ ascii "HEAD" <+: headerBlock xMem xReq by decide +kernel) 300
  rw [show HTTPClient_Send httpParser exCfg 300 (some (peerT (wireRequest xMem xReq (some 2) 5 0) exResponse.bytes)) (some xReq) (some 2) 5
      (some (peerResp q)) 0 ⟨(t, [], []), xMem, []⟩ = _ from e] at e'
  cases e'
  obtain rfl : evs = evs' := List.append_cancel_left (hl.symm.trans hl')
  obtain ⟨h1, k, h2, h3, h5, _⟩ := (h _ _ _ rfl (by decide) (by rw [h4]; exact List.prefix_refl _) (by rw [h4]; exact ⟨_, rfl⟩)).fields (by decide +kernel)
  refine ⟨rh', resp', w', evs, k, e, by simpa using hl, ?_, h2, ?_, ?_⟩
  · rw [h1]; decide +kernel
  · rw [h5]; congr 1
  · rw [h3, show headerText exResponse.fields = ascii "Server: x y\r\nTRANSFER-encoding:\tChunked\r\nConnection:close" by decide +kernel]; rfl

/-- In one piece: exactly the header fields. Byte by byte: three bytes more. -/
example : let r := exRun exGet 200 0 [exLength.bytes]
    (seen r).map (fun s => (s.st, s.pHeaders, s.headersLen)) = some (.success, some 15, 17) := by decide +kernel
example : let r := exRun exGet 200 0 (exLength.bytes.map fun c => [c])
    (seen r).map (fun s => (s.st, s.pHeaders, s.headersLen)) = some (.success, some 15, 20) := by decide +kernel

end CoreHttp.Props

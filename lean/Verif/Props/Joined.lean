import Verif.Props.Interim
import Verif.Ref.Joined

/-!
# C51 and C79, exactly: what is reported when several responses arrive together

A receive call may return the end of one response and one or more further responses (pipelining, an interim response followed by the final one, or a server
that answers twice). core_http_client.c gives all of it to the parser (2084–2160), whose callbacks go on with the same response object.
-/

namespace CoreHttp.Props
open CoreHttp Spec Ref Machine
variable {σ : Type} {cfg : Cfg} {T : Transport σ} {recv : σ → Nat → Int × Bytes × σ} {resp : Resp σ} {rh : ReqHeaders} {b rb : Nat}

/-- What the application gets for the responses `rs`, of which `last` is the last one, received together: one mixture of all of them. -/
structure GotMixed (cfg : Cfg) (rs : List Response) (last : Response) (cb : Bool) (evs : List (Ev PLog)) (m : Mem) (resp' : Resp σ) : Prop where
  statusCode : resp'.statusCode = last.code
  /-- the header callback: the fields of all of them, in order (of each, all trailer fields but the last, C52) -/
  reported : reported evs =
    if cb then rs.flatMap fun r => (r.fields ++ r.content.trailers.dropLast).map fun f => (f.name, f.value, r.code) else []
  headerCount : resp'.headerCount = (rs.map fun r => r.fields.length + (r.content.trailers.length - 1)).sum
  body : bodyBytes m resp' = rs.flatMap fun r => r.content.data
  bodyLen : resp'.bodyLen = (rs.flatMap fun r => r.content.data).length
  complete : resp'.areHeadersComplete = 1
  contentLength : last.statedLength < 2 ^ cfg.sizeBits → resp'.contentLength = last.statedLength
  close : bit resp'.respFlags 0 ↔ ∃ r ∈ rs, r.connection "close"
  keepAlive : bit resp'.respFlags 1 ↔ ∃ r ∈ rs, r.connection "keep-alive"

/-- **C51, exactly, for whole responses.** For every non-empty list of well-formed responses, all but the last on a connection that stays open: whenever
exactly their bytes have been received in a call that returns without a transport error, the call returns HTTPSuccess and reports one mixture: status code and
Content-Length of the last, the headers of all, the bodies of all put together. -/
theorem C51_joined {w w' : World PLog σ} {head : Bool} {r last : Response} {rs : List Response} {fuel : Nat} {st : Status} {resp' : Resp σ}
    {evs : List (Ev PLog)} (hp : RecvPre true httpParser cfg T recv resp rh b rb w.mem)
    (hok : ∀ x ∈ r :: rs, x.Ok head) (hopen : ∀ x ∈ (r :: rs).dropLast, ¬ x.closes) (hlast : (r :: rs).getLast? = some last)
    (hreq : ReqIs head (headerBlock w.mem rh)) (hflag : ¬ headersOnly resp.respOptionFlags)
    (e : HTTPClient_ReceiveAndParseHttpResponse httpParser cfg fuel (some T) (some resp) (some rh) w = (.ok (st, resp'), w'))
    (hl : w'.log = w.log ++ evs) (hne : st ≠ .networkError) (hall : received evs = (r :: rs).flatMap Response.bytes) :
    st = .success ∧ GotMixed cfg (r :: rs) last resp.pHeaderParsingCallback.isSome evs w'.mem resp' := by
  obtain ⟨er, f1, f2, f3, _, _, f7, f6⟩ := returned_fed hp e hl hne
  rw [answer_of hp hreq hflag] at f1
  have hfv := feed_view http_machine_ok (answerTo head) (calls evs)
  rw [show feedAll http.toParser = feedAll httpParser from rfl, f1, f2, hall] at hfv
  have hrun : ∀ p, absRun http (answerTo head) 0 (View.empty, .live http.init none) p = run (answerTo head) 0 (View.empty, .live .start none) p :=
    fun _ => rfl
  obtain ⟨cl, q1, _⟩ := responses_run r rs hok hopen
  rw [hrun, show (r :: rs).flatMap Response.bytes = bytesOf (r :: rs) from rfl, q1] at hfv
  rcases hfv with ⟨v, a, o, g1, _, _, g2, g3⟩ | ⟨v, er', g1, _⟩
  rotate_left
  · cases g1
  obtain ⟨g0, g1⟩ := Prod.mk.inj g1
  have hv : view (obsOf evs) = viewFrom r.bytes.length (viewOf r) rs := g2.trans g0.symm
  have her : er = .ok := congrArg Prod.snd g3
  subst her
  obtain ⟨_, v2, v3, v4, v5, v6⟩ := viewFrom_spec rs r.bytes.length (viewOf r)
  rw [← hv] at v2 v3 v4 v5
  have v6 : (view (obsOf evs)).statusCode = last.code ∧ (view (obsOf evs)).state = .complete ∧
      (view (obsOf evs)).contentLength = some (UInt64.ofNat last.statedLength) := by
    rw [hv]
    cases rs with
    | nil =>
      simp only [List.getLast?_singleton, Option.some.injEq] at hlast
      subst hlast
      exact ⟨rfl, rfl, rfl⟩
    | cons y ys => exact v6 last (by simpa using hlast)
  obtain ⟨v6, v7, v8⟩ := v6
  have hms : msgState evs = .complete := v7
  refine ⟨by rw [f6, if_neg (by decide), if_pos (.inl rfl), hms]; rfl, ?_⟩
  have oklast : last.Ok head := hok _ (List.mem_of_getLast? hlast)
  obtain ⟨_, _, evs1, e1, l1, h1⟩ := C39_headers_reported hp fuel
  rw [e] at e1; cases e1
  obtain rfl : evs = evs1 := List.append_cancel_left (hl.symm.trans l1)
  obtain ⟨h39a, h39b, h39c⟩ := h1 _ _ rfl
  obtain ⟨h39c, h39d⟩ := h39c (.inl hne)
  obtain ⟨_, _, evs1, e1, l1, h1⟩ := C40_body_assembled hp fuel hflag
  rw [e] at e1; cases e1
  obtain rfl : evs = evs1 := List.append_cancel_left (hl.symm.trans l1)
  have h40 := h1 _ _ rfl (.inl hne)
  obtain ⟨_, _, evs1, e1, l1, h1⟩ := C49_content_length_partial hp fuel
  rw [e] at e1; cases e1
  obtain rfl : evs = evs1 := List.append_cancel_left (hl.symm.trans l1)
  have h49 := h1 _ _ rfl (UInt64.ofNat last.statedLength) v8
  have hlt := stated_lt oklast
  have hto : (UInt64.ofNat last.statedLength).toNat = last.statedLength := by
    rw [UInt64.toNat_ofNat']
    exact Nat.mod_eq_of_lt (Nat.lt_trans hlt (by decide))
  rw [hto] at h49
  have hb0 : ∀ a c, (bit (connFlags a c) 0 ↔ a = true) ∧ (bit (connFlags a c) 1 ↔ c = true) := by
    intro a c; unfold bit; cases a <;> cases c <;> exact ⟨by decide, by decide⟩
  have hh : (view (obsOf evs)).headers =
      (r :: rs).flatMap fun r => (r.fields ++ r.content.trailers.dropLast).map fun f => (f.name, f.value, r.code) := by
    rw [v2]; simp [viewOf, finalView, List.map_dropLast]
  have hbd : (view (obsOf evs)).body = (r :: rs).flatMap fun r => r.content.data := by
    rw [v3]; simp [viewOf, finalView]
  have hany : ∀ x : String, (r.fields.any (isConn x) || rs.any fun r => r.fields.any (isConn x)) = true ↔ ∃ y ∈ r :: rs, y.connection x := by
    intro x
    rw [Bool.or_eq_true, any_conn, List.any_eq_true]
    simp only [any_conn, List.mem_cons, exists_eq_or_imp]
  refine ⟨h39d.trans v6, ?_, ?_, by rw [h40.1, hbd], by rw [h40.2, hbd], h49.1, fun h => h49.2.1 h (by omega), ?_, ?_⟩
  · cases hcb : resp.pHeaderParsingCallback.isSome with
    | true => rw [if_pos rfl, h39a rfl hcb, hh]
    | false => rw [if_neg (by decide)]; exact h39b rfl (by simpa using hcb)
  · rw [h39c, hh, List.length_flatMap]; simp
  · rw [f7, (hb0 _ _).1, v4]; exact hany "close"
  · rw [f7, (hb0 _ _).2, v5]; exact hany "keep-alive"

/-- **C51, exactly, when a further response is cut off.** When complete well-formed responses (one or more, on a connection that stays open) and a beginning
of one more have been received, the call does not return HTTPSuccess, although the first response is complete: it returns HTTPInsufficientMemory when the buffer
is full, else HTTPPartialResponse. -/
theorem C51_cut {w w' : World PLog σ} {head : Bool} {r s : Response} {rs : List Response} {p : Bytes} {fuel : Nat} {st : Status} {resp' : Resp σ}
    {evs : List (Ev PLog)} (hp : RecvPre true httpParser cfg T recv resp rh b rb w.mem)
    (hok : ∀ x ∈ r :: rs, x.Ok head) (hopen : ∀ x ∈ r :: rs, ¬ x.closes) (ok : s.Ok head) (hpre : p <+: s.bytes) (hp0 : p ≠ []) (hp1 : p ≠ s.bytes)
    (hreq : ReqIs head (headerBlock w.mem rh)) (hflag : ¬ headersOnly resp.respOptionFlags)
    (e : HTTPClient_ReceiveAndParseHttpResponse httpParser cfg fuel (some T) (some resp) (some rh) w = (.ok (st, resp'), w'))
    (hl : w'.log = w.log ++ evs) (hne : st ≠ .networkError) (hall : received evs = (r :: rs).flatMap Response.bytes ++ p) :
    st = if (received evs).length = resp.bufferLen then .insufficientMemory else .partialResponse := by
  obtain ⟨er, f1, f2, f3, _, _, f7, f6⟩ := returned_fed hp e hl hne
  rw [answer_of hp hreq hflag] at f1
  have hfv := feed_view http_machine_ok (answerTo head) (calls evs)
  rw [show feedAll http.toParser = feedAll httpParser from rfl, f1, f2, hall] at hfv
  have hrun : ∀ p, absRun http (answerTo head) 0 (View.empty, .live http.init none) p = run (answerTo head) 0 (View.empty, .live .start none) p :=
    fun _ => rfl
  obtain ⟨cl, q1, hcl⟩ := responses_run r rs hok (fun x hx => hopen x (List.dropLast_subset _ hx))
  have hcl : cl = false := by
    have hl : (r :: rs).getLast (by simp) ∈ r :: rs := List.getLast_mem _
    rw [← Bool.not_eq_true, hcl ((r :: rs).getLast (by simp)) (List.getLast?_eq_some_getLast _), closesB_iff]
    exact hopen _ hl
  subst hcl
  obtain ⟨v', a', o', q2, q3⟩ := begun_again ok hpre hp0 hp1 (0 + (bytesOf (r :: rs)).length) (viewFrom r.bytes.length (viewOf r) rs)
  rw [hrun, show (r :: rs).flatMap Response.bytes = bytesOf (r :: rs) from rfl, run_then q1 q2] at hfv
  rcases hfv with ⟨v, a, o, g1, _, _, g2, g3⟩ | ⟨v, er', g1, _⟩
  rotate_left
  · cases g1
  obtain ⟨g0, g1⟩ := Prod.mk.inj g1
  have hv : view (obsOf evs) = v' := g2.trans g0.symm
  have her : er = .ok := congrArg Prod.snd g3
  subst her
  have hms : msgState evs = .incomplete := by unfold msgState; rw [hv]; exact q3
  have hf : decide (resp.respOptionFlags &&& DO_NOT_PARSE_BODY_FLAG ≠ 0) = false :=
    decide_eq_false fun h => hflag ((headersOnly_iff _).mp h)
  rw [f6, if_neg (by decide), if_pos (.inl rfl), hms, hf]
  simp [finalStatus]

/-- **C79, exactly, when everything arrives together.** Interim responses `rs` and then the response `r`: HTTPClient_ReceiveAndParseHttpResponse returns the
response's status code and body, but reports the header fields of the interim responses as well, and counts them. -/
theorem C79_joined {w w' : World PLog σ} {head : Bool} {r : Response} {rs : List Response} {fuel : Nat} {st : Status} {resp' : Resp σ}
    {evs : List (Ev PLog)} (hp : RecvPre true httpParser cfg T recv resp rh b rb w.mem)
    (hok : ∀ x ∈ rs, x.Ok head ∧ x.content = .none ∧ ¬ x.closes) (ok : r.Ok head)
    (hreq : ReqIs head (headerBlock w.mem rh)) (hflag : ¬ headersOnly resp.respOptionFlags)
    (e : HTTPClient_ReceiveAndParseHttpResponse httpParser cfg fuel (some T) (some resp) (some rh) w = (.ok (st, resp'), w'))
    (hl : w'.log = w.log ++ evs) (hne : st ≠ .networkError) (hall : received evs = rs.flatMap Response.bytes ++ r.bytes) :
    st = .success ∧ resp'.statusCode = r.code ∧ bodyBytes w'.mem resp' = r.content.data ∧
      resp'.headerCount = (rs.map fun x => x.fields.length).sum + (r.fields.length + (r.content.trailers.length - 1)) ∧
      (resp.pHeaderParsingCallback.isSome → reported evs = (rs.flatMap fun x => x.fields.map fun f => (f.name, f.value, x.code)) ++
        (r.fields ++ r.content.trailers.dropLast).map fun f => (f.name, f.value, r.code)) := by
  have hnone : ∀ x ∈ rs, x.content.trailers = [] ∧ x.content.data = [] := fun x hx => by rw [(hok x hx).2.1]; exact ⟨rfl, rfl⟩
  have f1 : (rs.flatMap fun x => (x.fields ++ x.content.trailers.dropLast).map fun f => (f.name, f.value, x.code)) =
      rs.flatMap fun x => x.fields.map fun f => (f.name, f.value, x.code) :=
    congrArg List.flatten (List.map_congr_left fun x hx => by rw [(hnone x hx).1]; simp)
  have f2 : (rs.flatMap fun x => x.content.data) = [] := List.flatMap_eq_nil_iff.mpr fun x hx => (hnone x hx).2
  have f3 : (rs.map fun x => x.fields.length + (x.content.trailers.length - 1)) = rs.map fun x => x.fields.length :=
    List.map_congr_left fun x hx => by rw [(hnone x hx).1]; rfl
  obtain ⟨q, qs, hq⟩ : ∃ q qs, rs ++ [r] = q :: qs := by cases rs with
    | nil => exact ⟨_, _, rfl⟩
    | cons y ys => exact ⟨_, _, rfl⟩
  obtain ⟨h1, h2⟩ := C51_joined (r := q) (rs := qs) (last := r) (head := head) hp
    (by
      rw [← hq]
      intro x hx
      rcases List.mem_append.mp hx with hx | hx
      · exact (hok x hx).1
      · rw [List.mem_singleton.mp hx]; exact ok)
    (by rw [← hq, List.dropLast_concat]; exact fun x hx => (hok x hx).2.2)
    (by rw [← hq]; simp) hreq hflag e hl hne (by rw [← hq, hall]; simp)
  refine ⟨h1, h2.statusCode, ?_, ?_, fun hcb => ?_⟩
  · rw [h2.body, ← hq, List.flatMap_append, f2]; simp
  · rw [h2.headerCount, ← hq, List.map_append, f3]; simp
  · rw [h2.reported, if_pos hcb, ← hq, List.flatMap_append, f1]; simp

/-- An interim response and two responses in one receive call: the hypotheses of the theorems above hold. -/
def exTwo : Response := ⟨.v11, 200, ascii "OK", [⟨ascii "Content-Length", ascii " ", ascii "2"⟩], .length (ascii "ab")⟩
def exThree : Response := ⟨.v11, 404, ascii "X", [⟨ascii "Content-Length", ascii " ", ascii "1"⟩, ⟨ascii "Connection", ascii " ", ascii "close"⟩], .length (ascii "c")⟩

theorem exTwo_ok : exTwo.Ok false := by
  refine ⟨by decide, by decide, ?_, rfl, ⟨⟨ascii "Content-Length", ascii " ", ascii "2"⟩, by decide +kernel, by decide +kernel⟩, by decide, ?_⟩
  · intro f hf
    simp only [exTwo, List.mem_singleton] at hf
    subst hf; exact fieldOk_of (by decide +kernel)
  · intro f hf
    simp only [exTwo, List.mem_singleton] at hf
    subst hf; decide +kernel

theorem exThree_ok : exThree.Ok false := by
  refine ⟨by decide, by decide, ?_, rfl, ⟨⟨ascii "Content-Length", ascii " ", ascii "1"⟩, by decide +kernel, by decide +kernel⟩, by decide, ?_⟩
  · intro f hf
    simp only [exThree, List.mem_cons, List.not_mem_nil, or_false] at hf
    rcases hf with rfl | rfl <;> exact fieldOk_of (by decide +kernel)
  · intro f hf
    simp only [exThree, List.mem_cons, List.not_mem_nil, or_false] at hf
    rcases hf with rfl | rfl <;> decide +kernel

theorem exOpen_interim : ¬ exInterim.closes := by
  rintro (⟨f, hf, h1, h2⟩ | ⟨h, _⟩)
  · simp only [exInterim, List.mem_singleton] at hf
    subst hf; revert h1; decide +kernel
  · cases h

theorem exOpen_two : ¬ exTwo.closes := by
  rintro (⟨f, hf, h1, h2⟩ | ⟨h, _⟩)
  · simp only [exTwo, List.mem_singleton] at hf
    subst hf; revert h1; decide +kernel
  · cases h

/-- The run: all three in one receive call; and C51_joined applies to it. -/
example : (exRun exGet 200 0 [exInterim.bytes ++ exTwo.bytes ++ exThree.bytes]).2.log.length ≠ 0 ∧
    ∃ resp', (exRun exGet 200 0 [exInterim.bytes ++ exTwo.bytes ++ exThree.bytes]).1 = .ok (.success, resp') ∧
      GotMixed exCfg [exInterim, exTwo, exThree] exThree true (exRun exGet 200 0 [exInterim.bytes ++ exTwo.bytes ++ exThree.bytes]).2.log
        (exRun exGet 200 0 [exInterim.bytes ++ exTwo.bytes ++ exThree.bytes]).2.mem resp' := by
  refine ⟨by decide +kernel, ?_⟩
  have hs : (seen (exRun exGet 200 0 [exInterim.bytes ++ exTwo.bytes ++ exThree.bytes])).map (·.st) = some .success := by decide +kernel
  have hr : received (exRun exGet 200 0 [exInterim.bytes ++ exTwo.bytes ++ exThree.bytes]).2.log = [exInterim, exTwo, exThree].flatMap Response.bytes := by
    decide +kernel
  rcases hx : exRun exGet 200 0 [exInterim.bytes ++ exTwo.bytes ++ exThree.bytes] with ⟨x, w'⟩
  rw [hx] at hs hr
  match x with
  | .ok (st, resp') =>
    have hst : st = .success := by simpa [seen] using hs
    subst hst
    refine ⟨resp', rfl, ?_⟩
    refine (C51_joined (w := (⟨(4294967290, [exInterim.bytes ++ exTwo.bytes ++ exThree.bytes]), exRMem exGet 200, []⟩ : World PLog Script))
      (head := false) (exRecvPre exGet (by decide) 200 (by decide) (by decide) 0) ?_ ?_ rfl
      (show ¬ ascii "HEAD" <+: headerBlock (exRMem exGet 200) (exReq exGet) by decide +kernel) (show ¬ ((0 : UInt32).toNat % 2 = 1) by decide) hx (List.nil_append _).symm (by decide) hr).2
    · intro y hy
      simp only [List.mem_cons, List.not_mem_nil, or_false] at hy
      rcases hy with rfl | rfl | rfl
      · exact exInterim_ok.1
      · exact exTwo_ok
      · exact exThree_ok
    · intro y hy
      simp only [List.dropLast, List.mem_cons, List.not_mem_nil, or_false] at hy
      rcases hy with rfl | rfl
      · exact exOpen_interim
      · exact exOpen_two
  | .fault f => simp [seen] at hs
  | .more => simp [seen] at hs

/-- A complete response with a beginning of another one, and the hypotheses of C51_cut about it. -/
example : (seen (exRun exGet 200 0 [exTwo.bytes ++ ascii "HTTP/1.1 4"])).map (fun s => (s.st, s.statusCode, s.body)) =
      some (.partialResponse, 200, ascii "ab") ∧
    received (exRun exGet 200 0 [exTwo.bytes ++ ascii "HTTP/1.1 4"]).2.log = [exTwo].flatMap Response.bytes ++ ascii "HTTP/1.1 4" ∧
    ascii "HTTP/1.1 4" <+: exThree.bytes ∧ ascii "HTTP/1.1 4" ≠ exThree.bytes := by
  refine ⟨by decide +kernel, by decide +kernel, ?_, by decide +kernel⟩
  rw [← List.isPrefixOf_iff_prefix]; decide +kernel

end CoreHttp.Props

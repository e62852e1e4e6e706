import Verif.Spec.Final
import Verif.Props.Joined
import Verif.Props.Exchange
import Verif.Props.Place
import Verif.Props.ReceiveEx

/-! # C110: passing over interim responses -/

namespace CoreHttp.Props
open CoreHttp Spec Ref Machine
variable {σ : Type} {strict : Bool} {P : Parser} {cfg : Cfg} {T : Transport σ} {send : σ → Bytes → Int × σ} {recv : σ → Nat → Int × Bytes × σ} {rh : ReqHeaders} {rb b n : Nat}
  {body : Option Nat} {resp : Resp σ} {flags : UInt32} {got rest : σ → Bytes} {request : Bytes}

/-- When everything has been fed to the parser, the last message is complete. -/
theorem fed_complete_all {w : World PLog σ} {head : Bool} {xs : List Response} (hp : RecvPre true httpParser cfg T recv resp rh b rb w.mem)
    (hne : xs ≠ []) (hok : ∀ x ∈ xs, x.Ok head) (hopen : ∀ x ∈ xs.dropLast, ¬ x.closes) (hreq : ReqIs head (headerBlock w.mem rh))
    (hflag : ¬ headersOnly resp.respOptionFlags) {evs : List (Ev PLog)}
    (hf : FedOk httpParser (policy resp.respOptionFlags (startsHead w.mem rb)) evs) (hall : received evs = bytesOf xs) :
    msgState evs = .complete := by
  obtain ⟨r, rs, rfl⟩ := List.exists_cons_of_ne_nil hne
  obtain ⟨f1, f2, f3⟩ := hf
  rw [policy_eq, answer_of hp hreq hflag] at f2 f3
  have hfl : (calls evs).flatten = bytesOf (r :: rs) := by rw [calls_flatten, f1, hall]
  have hfv := feed_view http_machine_ok (answerTo head) (calls evs)
  have hrun : ∀ p, absRun http (answerTo head) 0 (View.empty, .live http.init none) p = run (answerTo head) 0 (View.empty, .live .start none) p :=
    fun _ => rfl
  obtain ⟨cl, q1, _⟩ := responses_run r rs hok hopen
  rw [show feedAll http.toParser = feedAll httpParser from rfl, hrun, hfl, q1] at hfv
  rcases hfv with ⟨v, a, o, g1, _, _, g2, g3⟩ | ⟨v, er', g1, _⟩
  · obtain ⟨rfl, g1⟩ := Prod.mk.inj g1
    unfold msgState
    rw [f2, g2]
    cases rs with
    | nil => rfl
    | cons y ys => exact ((viewFrom_spec (y :: ys) _ _).2.2.2.2.2 ((y :: ys).getLast (by simp)) (List.getLast?_eq_some_getLast _)).2.1
  · cases g1

/-- A beginning of several responses: some whole ones, and perhaps a part of the next one. -/
theorem prefix_bytesOf {p : Bytes} : ∀ {xs : List Response}, p <+: bytesOf xs →
    ∃ pre post, xs = pre ++ post ∧ (p = bytesOf pre ∨ ∃ s post' q, post = s :: post' ∧ p = bytesOf pre ++ q ∧ q <+: s.bytes ∧ q ≠ [] ∧ q ≠ s.bytes) := by
  intro xs
  induction xs generalizing p with
  | nil =>
    intro h
    exact ⟨[], [], rfl, .inl (List.prefix_nil.mp h)⟩
  | cons x xs ih =>
    intro h
    rw [show bytesOf (x :: xs) = x.bytes ++ bytesOf xs by simp [bytesOf]] at h
    have hor : p <+: x.bytes ∨ ∃ q, p = x.bytes ++ q ∧ q <+: bytesOf xs := by
      rcases Nat.le_total p.length x.bytes.length with h1 | h1
      · exact .inl (List.prefix_of_prefix_length_le h (List.prefix_append _ _) h1)
      · obtain ⟨q, rfl⟩ := List.prefix_of_prefix_length_le (List.prefix_append _ _) h h1
        exact .inr ⟨q, rfl, (List.prefix_append_right_inj _).mp h⟩
    rcases hor with h | ⟨q, rfl, hq⟩
    · by_cases h0 : p = []
      · exact ⟨[], x :: xs, rfl, .inl h0⟩
      by_cases h1 : p = x.bytes
      · exact ⟨[x], xs, rfl, .inl (by rw [h1]; simp [bytesOf])⟩
      · exact ⟨[], x :: xs, rfl, .inr ⟨x, xs, p, rfl, rfl, h, h0, h1⟩⟩
    · obtain ⟨pre, post, rfl, h2⟩ := ih hq
      refine ⟨x :: pre, post, rfl, ?_⟩
      rcases h2 with rfl | ⟨s, post', q', rfl, rfl, h3⟩
      · exact .inl (by simp [bytesOf])
      · exact .inr ⟨s, post', q', rfl, by simp [bytesOf], h3⟩

/-- **Receiving from a peer that has several responses to deliver**, all but the last on a connection that stays open: the call returns HTTPSuccess, having
received some of them, at least one, whole; how many depends on how the network cuts the stream. -/
theorem giver_some {w : World PLog σ} {head : Bool} {xs : List Response} (hp : RecvPre true httpParser cfg T recv resp rh b rb w.mem)
    (hxs : xs ≠ []) (hok : ∀ x ∈ xs, x.Ok head) (hopen : ∀ x ∈ xs.dropLast, ¬ x.closes) (hreq : ReqIs head (headerBlock w.mem rh))
    (hflag : ¬ headersOnly resp.respOptionFlags) (hfit : (bytesOf xs).length ≤ resp.bufferLen) (hP : Giver got rest recv resp)
    (hrest : rest w.env = bytesOf xs) {fuel : Nat} (hfuel : resp.bufferLen < fuel) :
    ∃ resp' w' evs pre post last, HTTPClient_ReceiveAndParseHttpResponse httpParser cfg fuel (some T) (some resp) (some rh) w =
        (.ok (.success, resp'), w') ∧ w'.log = w.log ++ evs ∧ xs = pre ++ post ∧ pre.getLast? = some last ∧ received evs = bytesOf pre ∧
      rest w'.env = bytesOf post ∧ got w'.env = got w.env ∧ GotMixed cfg pre last resp.pHeaderParsingCallback.isSome evs w'.mem resp' := by
  have hx : ∀ s len, (recv s len).1 = ((recv s len).2.1.length : Int) := fun s len => (hP.delivers s len).1
  obtain ⟨res, w', t0, evs, e, hl, h59⟩ := C59_no_early_stop hp fuel
  have hrt : received (.time t0 :: evs) = received evs := rfl
  -- the relation of environment and trace
  have hk := (receive_keeps httpParser cfg hp.hasRecv (receiving_inv_giver (request := got w.env) (answer := bytesOf xs) hP w.log) rh fuel w
    ⟨[], by simp, rfl, by simpa [received] using hrest, by intro pre off len ret data post h; cases pre <;> cases h⟩).1
  rw [e] at hk
  obtain ⟨evs', hl', g1, g2, g3⟩ := hk
  obtain rfl : Ev.time t0 :: evs = evs' := List.append_cancel_left (hl.symm.trans hl')
  -- every receive call delivers something
  have hne : ∀ pre off len ret data post, Ev.time t0 :: evs = pre ++ .recv off len ret data :: post → data ≠ [] := by
    intro pre off len ret data post he h0
    obtain ⟨_, _, evs1, e1, l1, h29, _⟩ := C29_receive_contiguous hp fuel
    rw [e] at e1; cases e1
    obtain rfl : Ev.time t0 :: evs = evs1 := List.append_cancel_left (hl.symm.trans l1)
    obtain ⟨_, _, evs1, e1, l1, h51⟩ := C51_one_response_partial hp fuel
    rw [e] at e1; cases e1
    obtain rfl : Ev.time t0 :: evs = evs1 := List.append_cancel_left (hl.symm.trans l1)
    obtain ⟨_, _, t1, evs1, e1, l1, hfa⟩ := receive_fedAt hp fuel
    rw [e] at e1; cases e1
    obtain ⟨ht, hev⟩ := List.cons.inj (List.append_cancel_left (hl.symm.trans l1))
    cases ht; cases hev
    rcases (g3 _ _ _ _ _ _ he).2.2 h0 with h1 | h1
    · have := (h29 _ _ _ _ _ _ he).2.2.1; omega
    · refine h51 _ _ _ _ _ _ he (fed_complete_all hp hxs hok hopen hreq hflag ?_ h1)
      rcases split_cons he with ⟨_, h2, _⟩ | ⟨pre', rfl, h2⟩
      · cases h2
      · exact hfa _ _ _ _ _ _ h2
  have hcount := recvs_le_received hne
  have hlen : (received (Ev.time t0 :: evs)).length ≤ (bytesOf xs).length := by
    rw [← g2, List.length_append]; omega
  -- the call returns
  have hm : res ≠ .more := by
    rintro rfl
    have h1 := receive_more hp hx (fuel := fuel) (by rw [e])
    rw [e] at h1
    dsimp only at h1
    rw [hl, recvs_append, List.length_append] at h1
    omega
  have hnf : ∀ f, res ≠ .fault f := by
    obtain ⟨_, _, _, e1, _, _, h1, _⟩ := receive_no_send hp fuel
    rw [e] at e1; cases e1
    exact h1
  rcases res with ⟨st, resp'⟩ | f | _
  case fault => exact absurd rfl (hnf f)
  case more => exact absurd rfl hm
  have hnet : st ≠ .networkError := by
    rintro rfl
    obtain ⟨_, _, evs1, e1, l1, _, h1⟩ := C31_receive_error hp fuel
    rw [e] at e1; cases e1
    obtain rfl : Ev.time t0 :: evs = evs1 := List.append_cancel_left (hl.symm.trans l1)
    obtain ⟨pre, off, len, ret, data, h2, h3⟩ := h1 _ rfl
    have := (g3 _ _ _ _ _ _ h2).1
    omega
  have hstop : ¬ ∃ pre off len t post, evs = pre ++ Ev.recv off len 0 [] :: .time t :: post := by
    rintro ⟨pre, off, len, t, post, h⟩
    exact hne (.time t0 :: pre) off len 0 [] (.time t :: post) (by rw [h]; rfl) rfl
  have hpre : received (Ev.time t0 :: evs) <+: bytesOf xs := ⟨_, g2⟩
  obtain ⟨pre, post, hsplit, hcase⟩ := prefix_bytesOf hpre
  have hokp : ∀ x ∈ pre, x.Ok head := fun x hx => hok x (by rw [hsplit]; exact List.mem_append_left _ hx)
  rcases hcase with hall | ⟨s, post', q, rfl, hall, hq, hq0, hq1⟩
  · cases pre with
    | nil =>
      -- nothing received
      exfalso
      obtain ⟨x, xs', rfl⟩ := List.exists_cons_of_ne_nil hxs
      have okx := hok x List.mem_cons_self
      have hxb : x.bytes <+: bytesOf (x :: xs') := ⟨bytesOf xs', by simp [bytesOf]⟩
      obtain ⟨_, _, t1, evs1, e1, l1, h58⟩ := C58_round_trip_receive hp okx hreq hflag (Nat.le_trans hxb.length_le hfit) fuel
      rw [e] at e1; cases e1
      obtain ⟨ht, hev⟩ := List.cons.inj (List.append_cancel_left (hl.symm.trans l1))
      cases ht; cases hev
      have hr0 : received evs = [] := by rw [← hrt, hall]; rfl
      have hdel : Delivers x.bytes evs := by
        intro p off len ret data po he
        refine ⟨(g3 (.time t0 :: p) off len ret data po (by rw [he]; rfl)).1, ?_⟩
        have : received p ++ data = [] := by
          rw [he, received_append] at hr0
          simp only [received, List.append_eq_nil_iff] at hr0
          simp [hr0.1, hr0.2.1]
        rw [this]; exact List.nil_prefix
      rcases h58 hdel _ _ rfl with ⟨_, h1, _⟩ | ⟨_, _, p, off, len, t, po, h1, _⟩
      · rw [hr0] at h1
        have hb : x.bytes ≠ [] := by
          have : x.bytes = x.version.text ++ (digits3 x.code ++ [32] ++ x.reason ++ crlf ++ section_ x.fields ++ x.content.bytes) := by
            simp [Response.bytes, Response.head]
          rw [this]; cases x.version <;> simp [Version.text, ascii]
        exact hb h1.symm
      · exact hstop ⟨p, off, len, t, po, h1⟩
    | cons r rs =>
      have hlast := List.getLast?_eq_some_getLast (List.cons_ne_nil r rs)
      have hop : ∀ x ∈ (r :: rs).dropLast, ¬ x.closes := by
        intro x hx
        refine hopen x ?_
        rw [hsplit]
        cases post with
        | nil => simpa using hx
        | cons y ys => rw [List.dropLast_append_of_ne_nil (by simp)]; exact List.mem_append_left _ (List.dropLast_subset _ hx)
      obtain ⟨rfl, hg⟩ := C51_joined hp hokp hop hlast hreq hflag e hl hnet hall
      refine ⟨resp', w', _, r :: rs, post, _, e, hl, hsplit, hlast, hall, ?_, g1, hg⟩
      rw [hall, hsplit] at g2
      have : bytesOf (r :: rs ++ post) = bytesOf (r :: rs) ++ bytesOf post := by simp [bytesOf]
      rw [this] at g2
      exact List.append_cancel_left g2
  · exfalso
    have hlt : (received (Ev.time t0 :: evs)).length < (bytesOf xs).length := by
      refine Nat.lt_of_le_of_ne hlen fun h => ?_
      have h2 := congrArg List.length hall
      have h3 : bytesOf xs = bytesOf pre ++ (s.bytes ++ bytesOf post') := by rw [hsplit]; simp [bytesOf]
      have h4 := hq.length_le
      have h5 : q.length ≠ s.bytes.length := fun h5 => hq1 (hq.eq_of_length h5)
      rw [h3] at h
      simp only [List.length_append] at h h2
      omega
    have oks : s.Ok head := hok s (by rw [hsplit]; simp)
    cases pre with
    | nil =>
      have hall' : received evs = q := hall
      have hsb : s.bytes <+: bytesOf xs := by rw [hsplit]; exact ⟨bytesOf post', by simp [bytesOf]⟩
      obtain ⟨_, _, t1, evs1, e1, l1, h58⟩ := C58_round_trip_receive hp oks hreq hflag (Nat.le_trans hsb.length_le hfit) fuel
      rw [e] at e1; cases e1
      obtain ⟨ht, hev⟩ := List.cons.inj (List.append_cancel_left (hl.symm.trans l1))
      cases ht; cases hev
      have hdel : Delivers s.bytes evs := by
        intro p off len ret data po he
        refine ⟨(g3 (.time t0 :: p) off len ret data po (by rw [he]; rfl)).1, List.IsPrefix.trans ?_ hq⟩
        rw [← hall', he, received_append]
        exact ⟨received po, by simp [received]⟩
      rcases h58 hdel _ _ rfl with ⟨_, h1, _⟩ | ⟨_, _, p, off, len, t, po, h1, _⟩
      · exact hq1 (hall'.symm.trans h1)
      · exact hstop ⟨p, off, len, t, po, h1⟩
    | cons r rs =>
      have hop : ∀ x ∈ r :: rs, ¬ x.closes := by
        intro x hx
        refine hopen x ?_
        rw [hsplit, List.dropLast_append_of_ne_nil (by simp)]
        exact List.mem_append_left _ hx
      have hst := C51_cut hp hokp hop oks hq hq0 hq1 hreq hflag e hl hnet hall
      rw [if_neg (by omega)] at hst
      obtain ⟨p, off, len, t, po, h1, _⟩ := h59 _ _ rfl (.inl hst)
      exact hstop ⟨p, off, len, t, po, h1⟩

private theorem flatMap_congr' {α β : Type} {f g : α → List β} : ∀ {l : List α}, (∀ x ∈ l, f x = g x) → l.flatMap f = l.flatMap g
  | [], _ => rfl
  | x :: l, h => by
    rw [List.flatMap_cons, List.flatMap_cons, h x (List.mem_cons_self ..),
      flatMap_congr' fun y hy => h y (List.mem_cons_of_mem _ hy)]

/-- What the application has at the end: the final response, with the header fields of the interim ones reported, each with the status code of its response. -/
structure GotFinal (rs : List Response) (r : Response) (cb : Bool) (evs : List (Ev PLog)) (m : Mem) (resp' : Resp σ) : Prop where
  statusCode : resp'.statusCode = r.code
  body : bodyBytes m resp' = r.content.data
  bodyLen : resp'.bodyLen = r.content.data.length
  complete : resp'.areHeadersComplete = 1
  reported : reported evs = if cb then
    (rs.flatMap fun x => x.fields.map fun f => (f.name, f.value, x.code)) ++ (r.fields ++ r.content.trailers.dropLast).map fun f => (f.name, f.value, r.code)
    else []

/-- As long as there is no body, what is in the buffer is what was received. -/
theorem no_body_stored {w w' : World PLog σ} {evs : List (Ev PLog)} {st : Status} {resp' : Resp σ} {fuel : Nat}
    (hp : RecvPre strict P cfg T recv resp rh b rb w.mem) (hflag : ¬ headersOnly resp.respOptionFlags)
    (e : HTTPClient_ReceiveAndParseHttpResponse P cfg fuel (some T) (some resp) (some rh) w = (.ok (st, resp'), w'))
    (hl : w'.log = w.log ++ evs) (hne : st ≠ .networkError) (hnb : resp'.pBody = none) :
    ∀ i, i < (received evs).length → (w'.mem b)[i]? = (received evs)[i]? := by
  obtain ⟨r, w1, t0, tr, e1, hl1, hev, hfr, h⟩ := receive_spec hp fuel
  rw [e] at e1; cases e1
  obtain rfl : evs = .time t0 :: tr := List.append_cancel_left (hl.symm.trans hl1)
  rcases h with ⟨h0, h1⟩ | ⟨lst, total, h, st, resp', h0, h1, h2, h3⟩
  · cases h0
  cases h0
  rcases returned h2 h3 with ⟨h4, _, _, h5⟩ | ⟨ph, base, lo, ht, hp1, hp2, h4, h5⟩
  · exact absurd h4 hne
  have hnp : lst ≠ .parserPaused := fun h => hflag ((headersOnly_iff _).mp (ht.pausedAt (hp1.mp h)).1)
  rw [h4, if_neg hnp, ht.core.bodyPtr] at hnb
  intro i hi
  refine ht.core.agree i hi ?_
  intro p q hs
  rw [hs] at hnb; cases hnb

/-- After responses without a body, the buffer does not look like a HEAD request. -/
theorem request_not_head {w w' : World PLog σ} {head : Bool} {evs : List (Ev PLog)} {st : Status} {resp' : Resp σ} {fuel : Nat} {pre : List Response}
    (hp : RecvPre true httpParser cfg T recv resp rh b rb w.mem) (hreq : ReqIs head (headerBlock w.mem rh)) (hflag : ¬ headersOnly resp.respOptionFlags)
    (e : HTTPClient_ReceiveAndParseHttpResponse httpParser cfg fuel (some T) (some resp) (some rh) w = (.ok (st, resp'), w'))
    (hl : w'.log = w.log ++ evs) (hne : st ≠ .networkError) (hpre : pre ≠ []) (hok : ∀ x ∈ pre, x.Ok head) (hopen : ∀ x ∈ pre.dropLast, ¬ x.closes)
    (hnb : ∀ x ∈ pre, x.content = .none) (hrec : received evs = bytesOf pre) : ¬ ascii "HEAD" <+: w'.mem b := by
  obtain ⟨_, w1, t0, tr, e1, hl1, _⟩ := receive_spec hp fuel
  rw [e] at e1; cases e1
  obtain rfl : evs = .time t0 :: tr := List.append_cancel_left (hl.symm.trans hl1)
  obtain ⟨x, xs, rfl⟩ : ∃ x xs, pre = x :: xs := by
    cases pre with
    | nil => exact absurd rfl hpre
    | cons x xs => exact ⟨x, xs, rfl⟩
  obtain ⟨cl, hr, _⟩ := responses_run x xs hok hopen
  rw [← answer_of hp hreq hflag] at hr
  have hrt : received tr = bytesOf (x :: xs) := hrec
  rw [← hrt] at hr
  have hpb := place_returned hp hflag e hl hne hr
  have hbody : (run (headersAnswer resp.respOptionFlags (startsHead w.mem rb)) 0 (View.empty, .live .start none) (received tr)).1.body = [] := by
    rw [hr]
    dsimp only
    have hx : (viewOf x).body = [] := by
      simp only [viewOf, finalView]; rw [hnb x (by simp)]; rfl
    rw [(viewFrom_spec xs _ _).2.2.1, hx, List.nil_append, List.flatMap_eq_nil_iff]
    intro y hy
    rw [hnb y (by simp [hy])]; rfl
  rw [place_before hbody] at hpb
  have hst := no_body_stored hp hflag e hl hne hpb
  have hb : received (.time t0 :: tr) = bytesOf (x :: xs) := hrec
  obtain ⟨u, hu⟩ : ∃ u, bytesOf (x :: xs) = 72 :: 84 :: u := by
    simp only [bytesOf, List.flatMap_cons, Response.bytes, Response.head]
    cases x.version <;> exact ⟨_, rfl⟩
  rintro ⟨t, ht⟩
  have h1 := hst 1
  rw [hb, hu, ← ht] at h1
  have h2 : (ascii "HEAD" ++ t)[1]? = some 69 := rfl
  rw [h2] at h1
  have := h1 (by simp)
  revert this
  simp

/-- The receiving part, with at most `k` further calls. -/
theorem await_final {head : Bool} {r : Response} (ok : r.Ok head) (hfinal : 200 ≤ r.code) (hne : b ≠ rb ∨ head = false) {fuel : Nat} : ∀ (k : Nat) (rs : List Response) (resp : Resp σ)
    (w : World PLog σ), RecvPre true httpParser cfg T recv resp rh b rb w.mem →
    (∀ x ∈ rs, x.Ok head ∧ x.content = .none ∧ ¬ x.closes ∧ isInterim x.code) → ReqIs head (headerBlock w.mem rh) →
    ¬ headersOnly resp.respOptionFlags → (bytesOf (rs ++ [r])).length ≤ resp.bufferLen → Giver got rest recv resp → rest w.env = bytesOf (rs ++ [r]) →
    resp.bufferLen < fuel → rs.length ≤ k →
    ∃ resp' w' evs, (do
        let x ← HTTPClient_ReceiveAndParseHttpResponse httpParser cfg fuel (some T) (some resp) (some rh)
        awaitFinal httpParser cfg fuel T rh k x : M PLog σ (Status × Resp σ)) w = (.ok (.success, resp'), w') ∧
      w'.log = w.log ++ evs ∧ accepted evs = [] ∧ received evs = bytesOf (rs ++ [r]) ∧ rest w'.env = [] ∧ got w'.env = got w.env ∧
      GotFinal rs r resp.pHeaderParsingCallback.isSome evs w'.mem resp' := by
  intro k
  induction k with
  | zero => ?_
  | succ k ih => ?_
  all_goals
    intro rs resp w hp hrs hreq hflag hfit hP hrest hfuel hk
    have hok : ∀ x ∈ rs ++ [r], x.Ok head := by
      intro x hx
      rcases List.mem_append.mp hx with h | h
      · exact (hrs x h).1
      · rw [List.mem_singleton.mp h]; exact ok
    have hopen : ∀ x ∈ (rs ++ [r]).dropLast, ¬ x.closes := by
      intro x hx
      rw [List.dropLast_concat] at hx
      exact (hrs x hx).2.2.1
    obtain ⟨resp', w', evs, pre, post, last, e, hl, hsplit, hlast, hrec, hrest', hgot', hg⟩ :=
      giver_some hp (by simp) hok hopen hreq hflag hfit hP hrest hfuel
    obtain ⟨_, _, evs', e', hl', hns, _, hfr⟩ := receive_no_send hp fuel
    rw [e] at e'; cases e'
    obtain rfl : evs = evs' := List.append_cancel_left (hl.symm.trans hl')
    have hacc := (sends_nil hns).2
    have hnint : ¬ isInterim r.code := fun h => absurd h.2.1 (by omega)
    have hend : post = [] → GotFinal rs r resp.pHeaderParsingCallback.isSome evs w'.mem resp' ∧ last = r := by
      rintro rfl
      rw [List.append_nil] at hsplit
      subst hsplit
      rw [List.getLast?_concat] at hlast
      cases hlast
      have hdata : ((rs ++ [r]).flatMap fun x => x.content.data) = r.content.data := by
        rw [List.flatMap_append]
        have : (rs.flatMap fun x => x.content.data) = [] := by
          rw [List.flatMap_eq_nil_iff]
          intro x hx
          rw [(hrs x hx).2.1]; rfl
        rw [this]; simp
      refine ⟨⟨hg.statusCode, by rw [hg.body, hdata], by rw [hg.bodyLen, hdata], hg.complete, ?_⟩, rfl⟩
      rw [hg.reported, List.flatMap_append]
      have : (rs.flatMap fun x => (x.fields ++ x.content.trailers.dropLast).map fun f => (f.name, f.value, x.code)) =
          rs.flatMap fun x => x.fields.map fun f => (f.name, f.value, x.code) := by
        refine flatMap_congr' fun x hx => ?_
        rw [(hrs x hx).2.1]
        simp [Content.trailers]
      rw [this]
      simp
  · have hpost : post = [] := by
      cases rs with
      | cons x xs => simp at hk
      | nil =>
        cases pre with
        | nil => cases hlast
        | cons y ys => simp at hsplit; exact hsplit.2.2
    obtain ⟨hgf, _⟩ := hend hpost
    subst hpost
    rw [List.append_nil] at hsplit
    refine ⟨resp', w', evs, ?_, hl, hacc, by rw [hrec, hsplit], hrest', hgot', hgf⟩
    simp only [M.bind_apply, e]
    rfl
  · by_cases hpost : post = []
    · obtain ⟨hgf, _⟩ := hend hpost
      subst hpost
      rw [List.append_nil] at hsplit
      refine ⟨resp', w', evs, ?_, hl, hacc, by rw [hrec, hsplit], hrest', hgot', hgf⟩
      simp only [M.bind_apply, e]
      unfold awaitFinal
      rw [if_neg (fun h => hnint (by rw [← hgf.statusCode]; exact h.2))]
      rfl
    · obtain ⟨rs', hpo⟩ : ∃ rs', post = rs' ++ [r] := by
        refine ⟨post.dropLast, ?_⟩
        have h1 := List.dropLast_concat_getLast hpost
        have h2 : post.getLast hpost = r := by
          have := congrArg List.getLast? hsplit
          rw [List.getLast?_concat, List.getLast?_append, List.getLast?_eq_some_getLast hpost, Option.some_or] at this
          exact (Option.some.inj this).symm
        rw [← h2, h1]
      subst hpo
      obtain rfl : rs = pre ++ rs' := by
        rw [← List.append_assoc] at hsplit
        exact List.append_cancel_right hsplit
      have hlm : last ∈ pre ++ rs' := List.mem_append_left _ (List.mem_of_getLast? hlast)
      have hpl : 1 ≤ pre.length := by cases pre with | nil => cases hlast | cons y ys => simp
      have hl2 : ∀ i, (w'.mem i).length = (w.mem i).length := by
        intro i
        by_cases h : i = b
        · subst h; exact hfr.2.1
        · rw [hfr.1 i h]
      obtain ⟨s1, s2, s3, s4, s5⟩ := receive_setUp hp e
      have hp' : RecvPre true httpParser cfg T recv resp' rh b rb w'.mem := { hp with
        buf := s1.trans hp.buf
        pos := by rw [s2]; exact hp.pos
        room := by rw [hl2, s2]; exact hp.room
        size := by rw [s2]; exact hp.size
        clock := by rw [s4]; exact hp.clock
        callback := by rw [s3]; exact hp.callback
        reqRoom := by rw [hl2]; exact hp.reqRoom }
      have hpne : pre ≠ [] := by intro h; subst h; cases hlast
      have hreq' : ReqIs head (headerBlock w'.mem rh) := by
        by_cases hb : b = rb
        · obtain rfl : head = false := hne.resolve_left (fun h => h hb)
          subst hb
          have hn := request_not_head hp hreq hflag e hl (by decide) hpne (fun x hx => (hrs x (List.mem_append_left _ hx)).1)
            (fun x hx => (hrs x (List.mem_append_left _ (List.dropLast_subset _ hx))).2.2.1) (fun x hx => (hrs x (List.mem_append_left _ hx)).2.1) hrec
          intro h
          refine hn (h.trans ?_)
          unfold headerBlock
          rw [hp.reqBuf]
          exact List.take_prefix _ _
        · have hB : headerBlock w'.mem rh = headerBlock w.mem rh := by
            unfold headerBlock; rw [hp.reqBuf]; dsimp only; rw [hfr.1 rb (Ne.symm hb)]
          rw [hB]; exact hreq
      have hP' : Giver got rest recv resp' :=
        { hP with
          clock := by rw [s4]; exact hP.clock
          header := by rw [s3]; exact hP.header }
      have hbytes : bytesOf (pre ++ rs' ++ [r]) = bytesOf pre ++ bytesOf (rs' ++ [r]) := by simp [bytesOf]
      obtain ⟨resp2, w2, evs2, e2, hl3, a2, r2, rest2, got2, g2⟩ := ih rs' resp' w' hp' (fun x hx => hrs x (List.mem_append_right _ hx)) hreq'
        (by rw [s5]; exact hflag) (by rw [s2]; rw [hbytes, List.length_append] at hfit; omega) hP' hrest' (by rw [s2]; exact hfuel)
        (by rw [List.length_append] at hk; omega)
      refine ⟨resp2, w2, evs ++ evs2, ?_, by rw [hl3, hl, List.append_assoc], by rw [accepted_append', hacc, a2]; rfl,
        by rw [received_append, hrec, r2, hbytes], rest2, got2.trans hgot', g2.statusCode, g2.body, g2.bodyLen, g2.complete, ?_⟩
      · simp only [M.bind_apply, e] at e2 ⊢
        unfold awaitFinal
        rw [if_pos ⟨rfl, by rw [hg.statusCode]; exact (hrs last hlm).2.2.2⟩]
        exact e2
      · rw [reported_append, hg.reported, g2.reported, s3]
        split
        · rw [List.flatMap_append, List.append_assoc]
          congr 1
          refine flatMap_congr' fun x hx => ?_
          rw [(hrs x (List.mem_append_left _ hx)).2.1]
          simp [Content.trailers]
        · rfl

/-- **C110.** A response preceded by any number of interim responses (100 Continue, 102 Processing, 103 Early Hints ...): HTTPClient_Send, and then receiving again as
long as the status code is that of an interim response, ends with the final response, as the server sent it -- however the bytes arrive. -/
theorem C110_interim_passed_over {w : World PLog σ} {head : Bool} {rs : List Response} {r : Response} {resp : Resp σ} {body : Option Nat} {flags : UInt32}
    (hp : CallPre true httpParser cfg T send recv rh rb body n resp b w.mem) (hne : b ≠ rb ∨ head = false)
    (hrs : ∀ x ∈ rs, x.Ok head ∧ x.content = .none ∧ ¬ x.closes ∧ isInterim x.code) (ok : r.Ok head) (hfinal : 200 ≤ r.code)
    (hreq : ReqIs head (headerBlock w.mem rh)) (hflag : ¬ headersOnly resp.respOptionFlags)
    (hfit : (bytesOf (rs ++ [r])).length ≤ resp.bufferLen) (hfit' : (wireHeaders (headerBlock w.mem rh) n flags.toNat).length ≤ rh.bufferLen)
    (hP : Peer (wireRequest w.mem rh body n flags) (bytesOf (rs ++ [r])) got rest send recv resp) (hgot : got w.env = [])
    {fuel k : Nat} (hf1 : rh.bufferLen ≤ fuel) (hf2 : n ≤ fuel) (hf3 : resp.bufferLen < fuel) (hk : rs.length ≤ k) :
    ∃ resp' w' evs, sendAndAwait httpParser cfg fuel T rh body n resp flags k w = (.ok (.success, resp'), w') ∧
      w'.log = w.log ++ evs ∧ got w'.env = wireRequest w.mem rh body n flags ∧ rest w'.env = [] ∧
      accepted evs = wireRequest w.mem rh body n flags ∧ received evs = bytesOf (rs ++ [r]) ∧
      GotFinal rs r resp.pHeaderParsingCallback.isSome evs w'.mem resp' := by
  have hblk : 16 ≤ (headerBlock w.mem rh).length := by
    have h1 := hp.reqLen; have h2 := hp.reqRoom; have h3 := hp.reqLe
    unfold headerBlock; rw [hp.reqBuf]; simp only [List.length_take]; omega
  have hP' : Peer (wireRequest w.mem rh body n flags) (bytesOf (rs ++ [r])) got rest send recv (withClock resp) :=
    { hP with
      clock := by
        intro f hf
        refine hP.clock f ?_
        unfold withClock at hf
        cases hc : resp.getTime <;> rw [hc] at hf <;> first | exact hf | cases hf
      header := hP.header }
  have hwr : wireRequest w.mem rh body n flags ≠ [] := by
    intro h
    have h1 := congrArg List.length (wireHeaders_take hblk n flags.toNat)
    have h2 : wireHeaders (headerBlock w.mem rh) n flags.toNat = [] := by
      unfold wireRequest at h; exact (List.append_eq_nil_iff.mp h).1
    rw [h2] at h1
    simp at h1
    omega
  obtain ⟨h', hall⟩ := sendRequest_all (flags := flags) (withClock_ne resp) hp hfit' hP.accepts hf1 hf2
  have hk' := (sendRequest_keeps (sending_inv hP' w.log) cfg hp.hasSend rh body n flags fuel w
    ⟨[], by simp, by simpa [accepted] using hgot, fun h => absurd h.symm hwr⟩).1
  have hs : ∀ rh' w1, sendHttpRequest cfg fuel (some T) (withClock resp).getTime (some rh) body n flags w = (.ok (.success, some rh'), w1) →
      sendAndAwait httpParser cfg fuel T rh body n resp flags k w = (do
        let x ← HTTPClient_ReceiveAndParseHttpResponse httpParser cfg fuel (some T) (some (withClock resp)) (some rh')
        awaitFinal httpParser cfg fuel T rh' k x : M PLog σ (Status × Resp σ)) w1 := by
    intro rh' w1 h
    unfold sendAndAwait
    simp only [M.bind_apply]
    rw [send_eq hp fuel]
    simp only [M.bind_apply]
    rw [h]
    simp only [if_true, M.bind_apply]
    cases HTTPClient_ReceiveAndParseHttpResponse httpParser cfg fuel (some T) (some (withClock resp)) (some rh') w1 with
    | mk o w2 => cases o <;> rfl
  rcases sendRequest_spec (flags := flags) (withClock_ne resp) hp fuel with ⟨h1, h2⟩ | ⟨h1, q, s', m', rh', evs1, e, hfr, hb, hbl, hle, hB, hlen, h2⟩
  · omega
  rw [e] at hall hk'
  dsimp only at hall
  rcases h2 with ⟨rfl, hph⟩ | ⟨rfl | rfl, _⟩
  · rw [hs _ _ e]
    obtain ⟨evs1', hl1, k1, k2⟩ := hk'
    obtain rfl : evs1 = evs1' := List.append_cancel_left hl1
    obtain ⟨s1, s2, _, s4⟩ := sending_kinds hph.kinds
    have hacc := hph.all_ rfl
    have hr := recvPre_of hp hfr hb hbl hle hB hlen
    obtain ⟨resp', w', evs, e2, hl2, a0, a1, a2, a3, a4⟩ := await_final ok hfinal hne k rs (withClock resp) ⟨s', m', w.log ++ evs1⟩
      hr hrs (by rw [hB]; exact reqIs_wire hblk _ _ hreq) hflag hfit (giver_of hP') (k2 hacc) hf3 hk
    refine ⟨resp', w', evs1 ++ evs, e2, by rw [hl2]; simp, a3.trans (k1.trans hacc), a2, ?_, ?_, ?_⟩
    · rw [accepted_append', a0, List.append_nil]; exact hacc
    · rw [received_append, s4]; exact a1
    · exact { a4 with reported := by rw [reported_append, s2]; exact a4.reported }
  · cases hall
  · cases hall

/-- 103 Early Hints, and then the answer. -/
def exHints : Response := ⟨.v11, 103, ascii "E", [⟨ascii "Link", [], ascii "a"⟩], .none⟩

/-- The hypotheses can be met: 103 Early Hints twice, and then a chunked response, five bytes at a time; the response in the request's
buffer (`q = 0`) or in another. -/
example (q : Nat) (hq : q = 0 ∨ q = 1) (t : Nat) : ∃ resp' w' evs,
    sendAndAwait httpParser exCfg 300 (peerT (wireRequest xMem xReq (some 2) 5 0) (bytesOf ([exHints, exHints] ++ [exResponse]))) xReq (some 2) 5 (peerResp q) 0 2
      ⟨(t, [], []), xMem, []⟩ = (.ok (.success, resp'), w') ∧ w'.log = evs ∧
    GotFinal [exHints, exHints] exResponse true evs w'.mem resp' ∧
    reported evs = [(ascii "Link", ascii "a", 103), (ascii "Link", ascii "a", 103), (ascii "Server", ascii "x y", 206),
      (ascii "TRANSFER-encoding", ascii "Chunked", 206), (ascii "Connection", ascii "close", 206), (ascii "T1", ascii "v1", 206)] := by
  have hx : exHints.Ok false ∧ exHints.content = .none ∧ ¬ exHints.closes ∧ isInterim exHints.code := by
    refine ⟨⟨by decide, by decide +kernel, ?_, ?_⟩, rfl, ?_, by decide⟩
    · intro f hf
      simp only [exHints, List.mem_cons, List.not_mem_nil, or_false] at hf
      subst hf; exact fieldOk_of (by decide +kernel)
    · exact ⟨.inr ⟨by unfold Response.bodiless; decide, by decide, (fun ⟨f, hf, h, _⟩ => by
        simp only [exHints, List.mem_cons, List.not_mem_nil, or_false] at hf
        subst hf; revert h; decide +kernel)⟩, .inl (by decide +kernel)⟩
    · rintro (⟨f, hf, h1, h2⟩ | ⟨h, _⟩)
      · simp only [exHints, List.mem_cons, List.not_mem_nil, or_false] at hf
        subst hf; revert h1 h2; decide +kernel
      · cases h
  obtain ⟨resp', w', evs, e, hl, h1, h2, _, h4, h5⟩ := C110_interim_passed_over (w := (⟨(t, [], []), xMem, []⟩ : World PLog PeerEnv)) (rs := [exHints, exHints])
    (flags := 0) (fuel := 300) (k := 2) (peerCallPre _ _ q hq) (.inr rfl)
    (by intro x hm; simp only [List.mem_cons, List.not_mem_nil, or_false, or_self] at hm; subst hm; exact hx) exResponse_ok (by decide)
    (show ¬ ascii "HEAD" <+: headerBlock xMem xReq by decide +kernel)
    (show ¬ ((0 : UInt32).toNat % 2 = 1) by decide) (show (bytesOf ([exHints, exHints] ++ [exResponse])).length ≤ 200 by decide +kernel)
    (show (wireHeaders (headerBlock xMem xReq) 5 (UInt32.toNat 0)).length ≤ 60 by decide +kernel) (peer_ok _ _ q) rfl (by decide) (by decide)
    (show 200 < 300 by decide) (by decide)
  refine ⟨resp', w', evs, e, by simpa using hl, h5, ?_⟩
  have := h5.reported
  rw [show (peerResp q).pHeaderParsingCallback.isSome = true from rfl, if_pos rfl] at this
  rw [this]; decide +kernel

/-! ### C111: HEAD, with one buffer for request and response -/

/-- **C111, partial.** When request and response share their buffer, and the request is not a HEAD request (missing: HEAD), interim responses can be passed over as
in C110. -/
theorem C111_shared_partial {w : World PLog σ} {rs : List Response} {r : Response} {resp : Resp σ} {body : Option Nat} {flags : UInt32}
    (hp : CallPre true httpParser cfg T send recv rh rb body n resp rb w.mem)
    (hrs : ∀ x ∈ rs, x.Ok false ∧ x.content = .none ∧ ¬ x.closes ∧ isInterim x.code) (ok : r.Ok false) (hfinal : 200 ≤ r.code)
    (hreq : ReqIs false (headerBlock w.mem rh)) (hflag : ¬ headersOnly resp.respOptionFlags)
    (hfit : (bytesOf (rs ++ [r])).length ≤ resp.bufferLen) (hfit' : (wireHeaders (headerBlock w.mem rh) n flags.toNat).length ≤ rh.bufferLen)
    (hP : Peer (wireRequest w.mem rh body n flags) (bytesOf (rs ++ [r])) got rest send recv resp) (hgot : got w.env = [])
    {fuel k : Nat} (hf1 : rh.bufferLen ≤ fuel) (hf2 : n ≤ fuel) (hf3 : resp.bufferLen < fuel) (hk : rs.length ≤ k) :
    ∃ resp' w' evs, sendAndAwait httpParser cfg fuel T rh body n resp flags k w = (.ok (.success, resp'), w') ∧
      w'.log = w.log ++ evs ∧ rest w'.env = [] ∧ received evs = bytesOf (rs ++ [r]) ∧ GotFinal rs r resp.pHeaderParsingCallback.isSome evs w'.mem resp' := by
  obtain ⟨resp', w', evs, h1, h2, _, h4, _, h6, h7⟩ :=
    C110_interim_passed_over hp (.inr rfl) hrs ok hfinal hreq hflag hfit hfit' hP hgot hf1 hf2 hf3 hk
  exact ⟨resp', w', evs, h1, h2, h4, h6, h7⟩

/-- A HEAD request, interim response and response, with the response in the request's buffer (`q = 0`) or in another one: status, status code, and content length. -/
def headAgain (q : Nat) : Option (Status × Nat × Nat) :=
  match sendAndAwait httpParser exCfg 100 scriptT (exReq (ascii "HEAD / HTTP/1.1\r\n\r\n")) none 0 { exResp 200 0 with pBuffer := some q } 0 2
    ⟨(0, [ascii "HTTP/1.1 103 E\r\nLink: x\r\n\r\n", ascii "HTTP/1.1 200 OK\r\nContent-Length: 5\r\n\r\n"]),
      fun i => if i = 0 then ascii "HEAD / HTTP/1.1\r\n\r\n" ++ List.replicate 200 0 else List.replicate 200 7, []⟩ with
  | (.ok (st, rs), _) => some (st, rs.statusCode, rs.contentLength)
  | _ => none

/-- **C111 is false of the code.** Whether the request was a HEAD request is looked up in the request's buffer when the receiving call starts. With a shared buffer
the first response has overwritten it: the second call takes the response to be one with a body, waits for it in vain, and returns HTTPPartialResponse. -/
theorem C111_refuted : headAgain 0 = some (.partialResponse, 200, 5) ∧ headAgain 1 = some (.success, 200, 5) := by
  constructor <;> decide +kernel

end CoreHttp.Props

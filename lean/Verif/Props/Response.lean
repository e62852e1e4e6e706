import Verif.Lemmas.RecvSim
import Verif.Props.Receive
import Verif.Lemmas.Feed

/-!
# Properties C39–C49, C59: what is reported about a response

`view (obsOf evs)` (Verif/Spec/View.lean) is the meaning of what the parser found in the received data: status code, headers, body, as byte
strings. The theorems relate the response object and the header callback to it. They are about calls that return (`r = .ok (st, resp')`); when
the transport fails before the parser has reported anything, the response object need not describe anything, hence the hypothesis
`st ≠ .networkError ∨ obsOf evs ≠ []`.
-/

namespace CoreHttp.Props
open CoreHttp Spec
variable {σ : Type} {P : Parser} {cfg : Cfg} {strict : Bool} {T : Transport σ} {recv : σ → Nat → Int × Bytes × σ} {resp : Resp σ}
  {rh : ReqHeaders} {b rb : Nat}

theorem isBody_iff (o : PObs) : o.isBody = true ↔ isBodyObs o := by
  unfold PObs.isBody isBodyObs
  cases o.ev <;> simp

/-- **C39.** The header callback was invoked exactly once per complete header, in order, with the complete field and value and the status code;
headerCount is the number of complete headers. (`strict = true`: the parser accepts no folded header lines.) -/
theorem C39_headers_reported {w : World PLog σ} (hp : RecvPre strict P cfg T recv resp rh b rb w.mem) (fuel : Nat) :
    ∃ r w' evs, HTTPClient_ReceiveAndParseHttpResponse P cfg fuel (some T) (some resp) (some rh) w = (r, w') ∧ w'.log = w.log ++ evs ∧
      ∀ st resp', r = .ok (st, resp') →
        (strict = true → resp.pHeaderParsingCallback.isSome → reported evs = (view (obsOf evs)).headers) ∧
        (strict = true → resp.pHeaderParsingCallback = none → reported evs = []) ∧
        (st ≠ .networkError ∨ obsOf evs ≠ [] → resp'.headerCount = (view (obsOf evs)).headers.length ∧
          resp'.statusCode = (view (obsOf evs)).statusCode) := by
  obtain ⟨r, w', t0, tr, e, hl, hev, hfr, h⟩ := receive_spec hp fuel
  refine ⟨r, w', _, e, hl, ?_⟩
  intro st resp' hr
  rcases h with ⟨rfl, h1⟩ | ⟨lst, total, h, st, resp', rfl, h1, h2, h3⟩
  · cases hr
  simp only [Run.ok.injEq, Prod.mk.injEq] at hr
  obtain ⟨rfl, rfl⟩ := hr
  obtain ⟨ph0, base0, lo0, ht0, _⟩ := h2.tinv
  refine ⟨?_, ?_, ?_⟩
  · intro hs hc; rw [ht0.rep hs, if_pos hc]
  · intro hs hc; rw [ht0.rep hs, hc]; rfl
  · intro hne
    rcases returned h2 h3 with ⟨h4, _, _, h5⟩ | ⟨ph, base, lo, ht, hp1, hp2, h4, h5⟩
    · rcases hne with hne | hne
      · exact absurd h4 hne
      · exact absurd h5 hne
    · have h6 := ht.core.hcount
      have h7 := ht.core.code
      rw [h4]
      split <;> exact ⟨h6, h7⟩

/-- **C40.** With HTTP_RESPONSE_DO_NOT_PARSE_BODY_FLAG clear, pBody[0..bodyLen) is the concatenation of the body fragments the parser found. -/
theorem C40_body_assembled {w : World PLog σ} (hp : RecvPre strict P cfg T recv resp rh b rb w.mem) (fuel : Nat)
    (hflag : ¬ headersOnly resp.respOptionFlags) :
    ∃ r w' evs, HTTPClient_ReceiveAndParseHttpResponse P cfg fuel (some T) (some resp) (some rh) w = (r, w') ∧ w'.log = w.log ++ evs ∧
      ∀ st resp', r = .ok (st, resp') → st ≠ .networkError ∨ obsOf evs ≠ [] →
        bodyBytes w'.mem resp' = (view (obsOf evs)).body ∧ resp'.bodyLen = (view (obsOf evs)).body.length := by
  obtain ⟨r, w', t0, tr, e, hl, hev, hfr, h⟩ := receive_spec hp fuel
  refine ⟨r, w', _, e, hl, ?_⟩
  intro st resp' hr hne
  rcases h with ⟨rfl, h1⟩ | ⟨lst, total, h, st, resp', rfl, h1, h2, h3⟩
  · cases hr
  simp only [Run.ok.injEq, Prod.mk.injEq] at hr
  obtain ⟨rfl, rfl⟩ := hr
  rcases returned h2 h3 with ⟨h4, _, _, h5⟩ | ⟨ph, base, lo, ht, hp1, hp2, h4, h5⟩
  · rcases hne with hne | hne
    · exact absurd h4 hne
    · exact absurd h5 hne
  have hnp : lst ≠ .parserPaused := fun h => hflag ((headersOnly_iff _).mp (ht.pausedAt (hp1.mp h)).1)
  rw [if_neg hnp] at h4
  rw [h4]
  unfold bodyBytes
  rw [ht.core.pbuf, hp.buf, ht.core.bodyPtr]
  rcases ht.core.body with ⟨q1, q2, q3⟩ | ⟨p, e, q1, q2, q3, q4⟩
  · rw [q1, q2, q3]; exact ⟨rfl, rfl⟩
  · rw [q1]
    refine ⟨q4, ?_⟩
    have := ht.core.lo_le
    have := ht.core.fits
    have := ht.core.room
    rw [← q4, slice_length (by omega)]

/-- **C41.** At every moment after a parser callback, and on return, the buffer holds the received bytes unchanged except between the beginning of
the first and the end of the last body fragment reported so far; in particular before the body and in the data not yet parsed. Memory outside the
buffer is unchanged. -/
theorem C41_only_body_moved {w : World PLog σ} (hp : RecvPre strict P cfg T recv resp rh b rb w.mem) (fuel : Nat) :
    ∃ r w' evs, HTTPClient_ReceiveAndParseHttpResponse P cfg fuel (some T) (some resp) (some rh) w = (r, w') ∧ w'.log = w.log ++ evs ∧
      (∀ pre blk post, evs = pre ++ .parserEvent (.mem blk) :: post → ∀ i, i < (received pre).length →
        (∀ o ∈ obsOf pre, isBodyObs o → i < o.loc) ∨ (∀ o ∈ obsOf pre, isBodyObs o → o.loc + o.data.length ≤ i) →
        blk[i]? = (received pre)[i]?) ∧
      (r ≠ .more → ∀ i, i < (received evs).length →
        (∀ o ∈ obsOf evs, isBodyObs o → i < o.loc) ∨ (∀ o ∈ obsOf evs, isBodyObs o → o.loc + o.data.length ≤ i) →
        (w'.mem b)[i]? = (received evs)[i]?) ∧
      FrameBuf w.mem w'.mem b resp.bufferLen := by
  obtain ⟨r, w', t0, tr, e, hl, hev, hfr, h⟩ := receive_spec hp fuel
  refine ⟨r, w', _, e, hl, ?_, ?_, hfr⟩
  · intro pre blk post h0 i hi hb
    have := hev _ _ _ h0
    simp only [EvGood] at this
    apply this i hi
    rcases hb with hb | hb
    · exact .inl fun o ho hob => hb o ho ((isBody_iff o).mp hob)
    · exact .inr fun o ho hob => hb o ho ((isBody_iff o).mp hob)
  · intro hr i hi hb
    rcases h with ⟨rfl, h1⟩ | ⟨lst, total, h, st, resp', rfl, h1, h2, h3⟩
    · exact absurd rfl hr
    obtain ⟨ph0, base0, lo0, ht0, _⟩ := h2.tinv
    apply mem_good (evs := .time t0 :: tr) ht0.core i hi
    rcases hb with hb | hb
    · exact .inl fun o ho hob => hb o ho ((isBody_iff o).mp hob)
    · exact .inr fun o ho hob => hb o ho ((isBody_iff o).mp hob)

/-- **C41**, for the header section: when the response is the first message on the connection, and the parser has reported the end of its header section,
on return the buffer still holds the header section exactly as received; if there is a body, it begins after it. -/
theorem C41_header_section_kept {w : World PLog σ} (hp : RecvPre strict P cfg T recv resp rh b rb w.mem) (fuel : Nat) :
    ∃ r w' evs, HTTPClient_ReceiveAndParseHttpResponse P cfg fuel (some T) (some resp) (some rh) w = (r, w') ∧ w'.log = w.log ++ evs ∧
      ∀ st resp', r = .ok (st, resp') → (view (obsOf evs)).messages ≤ 1 → ∀ n, (view (obsOf evs)).headersEnd = some n →
        n ≤ (received evs).length ∧ (w'.mem b).take n = (received evs).take n ∧ ∀ q, resp'.pBody = some q → n ≤ q := by
  obtain ⟨r, w', t0, tr, e, hl, hev, hfr, h⟩ := receive_spec hp fuel
  refine ⟨r, w', _, e, hl, ?_⟩
  intro st resp' hr hm n hn
  rcases h with ⟨rfl, h1⟩ | ⟨lst, total, h, st, resp', rfl, h1, h2, h3⟩
  · cases hr
  simp only [Run.ok.injEq, Prod.mk.injEq] at hr
  obtain ⟨rfl, rfl⟩ := hr
  rcases returned h2 h3 with ⟨_, _, _, h5⟩ | ⟨ph, base, lo, ht, hp1, hp2, h4, h5⟩
  · rw [h5] at hn; cases hn
  obtain ⟨g1, g2⟩ := (ht.core.hend hm).2 n hn
  have hlo := ht.core.lo_le
  refine ⟨by omega, ?_, ?_⟩
  · apply List.ext_getElem?
    intro i
    simp only [List.getElem?_take]
    split
    · exact ht.core.agree i (by omega) fun q e hq => .inl (by have := g2 q e hq; omega)
    · rfl
  · intro q hq
    obtain ⟨c, hc, hc1, hc2, hc3⟩ := ht.core.cur
    by_cases hpp : lst = .parserPaused
    · rw [if_pos hpp] at h4
      rw [h4] at hq
      have hcur := hp2 hpp
      simp only [Option.some.injEq] at hq
      omega
    · rw [if_neg hpp] at h4
      rw [h4, ht.core.bodyPtr] at hq
      obtain ⟨⟨q', e'⟩, e1, rfl⟩ := Option.map_eq_some_iff.mp hq
      exact g2 _ _ e1

/-- **C42.** The call never runs into undefined behaviour or a failing assertion; every location it reports lies inside the received data; memory
outside the response buffer is unchanged; headers precede the body when the data holds one message. -/
theorem C42_locations_inside {w : World PLog σ} (hp : RecvPre strict P cfg T recv resp rh b rb w.mem) (fuel : Nat) :
    ∃ r w' evs, HTTPClient_ReceiveAndParseHttpResponse P cfg fuel (some T) (some resp) (some rh) w = (r, w') ∧ w'.log = w.log ++ evs ∧
      r.Safe ∧ FrameBuf w.mem w'.mem b resp.bufferLen ∧
      (∀ pre fl f vl x c post, evs = pre ++ .header fl f vl x c :: post →
        slice (received pre) fl f.length = f ∧ slice (received pre) vl x.length = x ∧ fl + f.length ≤ vl ∧
        vl + x.length ≤ (received pre).length) ∧
      ∀ st resp', r = .ok (st, resp') → st ≠ .networkError ∨ obsOf evs ≠ [] →
        (∀ p, resp'.pHeaders = some p → p + resp'.headersLen ≤ (received evs).length) ∧
        (resp'.pHeaders = none → resp'.headersLen = 0) ∧
        (∀ q, resp'.pBody = some q → q + resp'.bodyLen ≤ (received evs).length) ∧
        (resp'.pBody = none → resp'.bodyLen = 0) ∧
        (∀ p q, resp'.pHeaders = some p → resp'.pBody = some q → (view (obsOf evs)).messages ≤ 1 →
          resp'.headersLen = 0 ∨ p + resp'.headersLen ≤ q) := by
  obtain ⟨r, w', t0, tr, e, hl, hev, hfr, h⟩ := receive_spec hp fuel
  refine ⟨r, w', _, e, hl, ?_, hfr, ?_, ?_⟩
  · intro f hf
    rcases h with ⟨rfl, h1⟩ | ⟨lst, total, h, st, resp', rfl, h1, h2, h3⟩ <;> cases hf
  · intro pre fl f vl x c post h0
    have := hev _ _ _ h0
    simpa only [EvGood] using this
  intro st resp' hr hne
  rcases h with ⟨rfl, h1⟩ | ⟨lst, total, h, st, resp', rfl, h1, h2, h3⟩
  · cases hr
  simp only [Run.ok.injEq, Prod.mk.injEq] at hr
  obtain ⟨rfl, rfl⟩ := hr
  rcases returned h2 h3 with ⟨h4, _, _, h5⟩ | ⟨ph, base, lo, ht, hp1, hp2, h4, h5⟩
  · rcases hne with hne | hne
    · exact absurd h4 hne
    · exact absurd h5 hne
  obtain ⟨c, hc, hc1, hc2, hc3⟩ := ht.core.cur
  have hlo := ht.core.lo_le
  have hbl := ht.core.base_le
  have hone := ht.core.one
  have hbp := ht.core.bodyPtr
  have hh0 := ht.core.hlen0
  have hcl : c ≤ (received (Ev.time t0 :: tr)).length := by omega
  by_cases hpp : lst = .parserPaused
  · rw [if_pos hpp] at h4
    have hcur := hp2 hpp
    rw [hc] at hcur; cases hcur
    rw [h4]
    refine ⟨fun p q1 => by have := (hc3 p q1).2; dsimp only; omega, hh0, fun q hq => ?_, (fun hq => by simp at hq), fun p q q1 q2 _ => ?_⟩
    · simp only [Option.some.injEq] at hq; dsimp only; omega
    · simp only [Option.some.injEq] at q2; right; rw [← q2]; exact (hc3 p q1).2
  · rw [if_neg hpp] at h4
    rw [h4]
    refine ⟨fun p q1 => by have := (hc3 p q1).2; omega, hh0, fun q hq => ?_, fun hq => ?_, fun p q q1 q2 hm => ?_⟩
    · rcases ht.core.body with ⟨e1, e2, e3⟩ | ⟨p, e, e1, e2, e3, e4⟩
      · rw [e3]; rw [hbp, e1] at hq; cases hq
      · rw [hbp, e1] at hq; cases hq; omega
    · rcases ht.core.body with ⟨e1, e2, e3⟩ | ⟨p, e, e1, e2, e3, e4⟩
      · exact e3
      · rw [hbp, e1] at hq; cases hq
    · rw [hbp] at q2
      obtain ⟨⟨q', e'⟩, e1, rfl⟩ := Option.map_eq_some_iff.mp q2
      exact (hone hm).2 p _ e' q1 e1

/-- **C43, partial** (missing, because false: independence of fragmentation). pHeaders is the beginning of the first header field; headersLen
reaches from there to the end of the last header value, or to the beginning of the data being parsed when the header section ended if that is
later (Verif/Spec/Receive.lean, `HdrScan`). -/
theorem C43_headers_location_partial {w : World PLog σ} (hp : RecvPre strict P cfg T recv resp rh b rb w.mem) (fuel : Nat) :
    ∃ r w' evs, HTTPClient_ReceiveAndParseHttpResponse P cfg fuel (some T) (some resp) (some rh) w = (r, w') ∧ w'.log = w.log ++ evs ∧
      ∀ st resp', r = .ok (st, resp') → st ≠ .networkError ∨ obsOf evs ≠ [] →
        resp'.pHeaders = (hdrScan evs).first ∧ resp'.headersLen = (hdrScan evs).len := by
  obtain ⟨r, w', t0, tr, e, hl, hev, hfr, h⟩ := receive_spec hp fuel
  refine ⟨r, w', _, e, hl, ?_⟩
  intro st resp' hr hne
  rcases h with ⟨rfl, h1⟩ | ⟨lst, total, h, st, resp', rfl, h1, h2, h3⟩
  · cases hr
  simp only [Run.ok.injEq, Prod.mk.injEq] at hr
  obtain ⟨rfl, rfl⟩ := hr
  rcases returned h2 h3 with ⟨h4, _, _, h5⟩ | ⟨ph, base, lo, ht, hp1, hp2, h4, h5⟩
  · rcases hne with hne | hne
    · exact absurd h4 hne
    · exact absurd h5 hne
  rw [h4]
  have := ht.x.ptr
  have := ht.x.len
  split <;> exact ⟨ht.x.ptr, ht.x.len⟩

/-- **C46.** With HTTP_RESPONSE_DO_NOT_PARSE_BODY_FLAG set, once the parser has reported the end of the header section (which is then the last thing
it reports), the call returns HTTPSuccess; pBody/bodyLen delimit exactly the received bytes after the header section, unmodified. -/
theorem C46_raw_body {w : World PLog σ} (hp : RecvPre strict P cfg T recv resp rh b rb w.mem) (fuel : Nat)
    (hflag : headersOnly resp.respOptionFlags) :
    ∃ r w' evs, HTTPClient_ReceiveAndParseHttpResponse P cfg fuel (some T) (some resp) (some rh) w = (r, w') ∧ w'.log = w.log ++ evs ∧
      (∀ o ∈ obsOf evs, r ≠ .more → ¬ isBodyObs o) ∧
      ∀ st resp', r = .ok (st, resp') → (view (obsOf evs)).contentLength.isSome →
        st = .success ∧ ∃ os o, obsOf evs = os ++ [o] ∧ isHeadersEnd o ∧ o.loc ≤ (received evs).length ∧ resp'.pBody = some o.loc ∧
          resp'.bodyLen = (received evs).length - o.loc ∧ bodyBytes w'.mem resp' = (received evs).drop o.loc ∧
          (∀ i, i < (received evs).length → (w'.mem b)[i]? = (received evs)[i]?) := by
  obtain ⟨r, w', t0, tr, e, hl, hev, hfr, h⟩ := receive_spec hp fuel
  have hfl := (headersOnly_iff _).mpr hflag
  refine ⟨r, w', _, e, hl, ?_, ?_⟩
  · intro o ho hr hb
    rcases h with ⟨rfl, h1⟩ | ⟨lst, total, h, st, resp', rfl, h1, h2, h3⟩
    · exact hr rfl
    obtain ⟨ph0, base0, lo0, ht0, _⟩ := h2.tinv
    have hsp := (ht0.core.opted hfl).2
    rcases bodySpan_spec (obsOf (Ev.time t0 :: tr)) with ⟨_, h4⟩ | ⟨p, e, h4, _⟩
    · have := h4 o ho; rw [(isBody_iff o).mpr hb] at this; cases this
    · rw [hsp] at h4; cases h4
  intro st resp' hr hcl
  rcases h with ⟨rfl, h1⟩ | ⟨lst, total, h, st, resp', rfl, h1, h2, h3⟩
  · cases hr
  simp only [Run.ok.injEq, Prod.mk.injEq] at hr
  obtain ⟨rfl, rfl⟩ := hr
  rcases returned h2 h3 with ⟨h4, _, _, h5⟩ | ⟨ph, base, lo, ht, hp1, hp2, h4, h5⟩
  · rw [h5] at hcl; cases hcl
  have hph : ph = .paused := Classical.byContradiction fun hne => by
    rw [ht.noHc hfl hne] at hcl; cases hcl
  have hpp := hp1.mpr hph
  rw [if_pos hpp] at h4 h5
  obtain ⟨_, os, o, e1, e2, e3⟩ := ht.pausedAt hph
  have hlo := ht.core.lo_le
  have hsp := (ht.core.opted hfl).2
  have hag : ∀ i, i < (received (Ev.time t0 :: tr)).length → (w'.mem b)[i]? = (received (Ev.time t0 :: tr))[i]? := by
    intro i hi
    apply ht.core.agree i hi
    intro p q hpq; rw [hsp] at hpq; cases hpq
  refine ⟨h5, os, o, e1, e2, by omega, by rw [h4, e3], by rw [h4, e3], ?_, hag⟩
  rw [h4, e3]
  unfold bodyBytes
  simp only [ht.core.pbuf, hp.buf]
  rw [slice_congr (t := received (Ev.time t0 :: tr)) (fun i h1 h2 => hag i (by omega))]
  unfold slice
  rw [List.take_of_length_le (by simp)]

/-- Membership of a bit in respFlags. -/
def bit (f : UInt32) (i : Nat) : Prop := f.toNat.testBit i = true

/-- **C48.** Bit 0 of respFlags is set exactly when the parser saw "Connection: close", bit 1 exactly when it saw "Connection: keep-alive"; no
other bit is set. -/
theorem C48_connection_flags {w : World PLog σ} (hp : RecvPre strict P cfg T recv resp rh b rb w.mem) (fuel : Nat) :
    ∃ r w' evs, HTTPClient_ReceiveAndParseHttpResponse P cfg fuel (some T) (some resp) (some rh) w = (r, w') ∧ w'.log = w.log ++ evs ∧
      ∀ st resp', r = .ok (st, resp') → st ≠ .networkError ∨ obsOf evs ≠ [] →
        (bit resp'.respFlags 0 ↔ ∃ o ∈ obsOf evs, ∃ a cl ka, o.ev = .headersComplete a cl true ka) ∧
        (bit resp'.respFlags 1 ↔ ∃ o ∈ obsOf evs, ∃ a cl cc, o.ev = .headersComplete a cl cc true) ∧
        (∀ i, 2 ≤ i → ¬ bit resp'.respFlags i) := by
  have hseen : ∀ os : List PObs, ((view os).connClose = true ↔ ∃ o ∈ os, ∃ a cl ka, o.ev = .headersComplete a cl true ka) ∧
      ((view os).keepAlive = true ↔ ∃ o ∈ os, ∃ a cl cc, o.ev = .headersComplete a cl cc true) := by
    intro os
    refine snocInduction (Q := fun os => ((view os).connClose = true ↔ ∃ o ∈ os, ∃ a cl ka, o.ev = .headersComplete a cl true ka) ∧
      ((view os).keepAlive = true ↔ ∃ o ∈ os, ∃ a cl cc, o.ev = .headersComplete a cl cc true)) (by simp [view, View.empty]) ?_ os
    intro os o ih
    rw [view_snoc]
    have hfl : ∀ v : View, v.flush.connClose = v.connClose ∧ v.flush.keepAlive = v.keepAlive := by
      intro v; unfold View.flush; split <;> exact ⟨rfl, rfl⟩
    have hmem : ∀ Q : PObs → Prop, (∃ x ∈ os ++ [o], Q x) ↔ (∃ x ∈ os, Q x) ∨ Q o := by
      intro Q; simp [or_and_right, exists_or]
    rw [hmem, hmem, ← ih.1, ← ih.2]
    cases he : o.ev with
    | headersComplete a cl cc ka =>
      simp only [View.step, he, Bool.or_eq_true, PEv.headersComplete.injEq]
      constructor
      · exact ⟨fun h => h.elim .inl fun h => .inr ⟨a, cl, ka, rfl, rfl, h, rfl⟩, fun h => h.elim .inl fun ⟨_, _, _, _, _, h, _⟩ => .inr h⟩
      · exact ⟨fun h => h.elim .inl fun h => .inr ⟨a, cl, cc, rfl, rfl, rfl, h⟩, fun h => h.elim .inl fun ⟨_, _, _, _, _, _, h⟩ => .inr h⟩
    | headerField off len => simp [View.step, he, (hfl _).1, (hfl _).2]
    | _ => simp [View.step, he]
  obtain ⟨r, w', t0, tr, e, hl, hev, hfr, h⟩ := receive_spec hp fuel
  refine ⟨r, w', _, e, hl, ?_⟩
  intro st resp' hr hne
  rcases h with ⟨rfl, h1⟩ | ⟨lst, total, h, st, resp', rfl, h1, h2, h3⟩
  · cases hr
  simp only [Run.ok.injEq, Prod.mk.injEq] at hr
  obtain ⟨rfl, rfl⟩ := hr
  rcases returned h2 h3 with ⟨h4, _, _, h5⟩ | ⟨ph, base, lo, ht, hp1, hp2, h4, h5⟩
  · rcases hne with hne | hne
    · exact absurd h4 hne
    · exact absurd h5 hne
  have hf : resp'.respFlags = connFlags (view (obsOf (.time t0 :: tr))).connClose (view (obsOf (.time t0 :: tr))).keepAlive := by
    rw [h4]; split <;> exact ht.core.flags
  obtain ⟨s1, s2⟩ := hseen (obsOf (.time t0 :: tr))
  rw [← s1, ← s2, hf]
  generalize (view (obsOf (.time t0 :: tr))).connClose = a
  generalize (view (obsOf (.time t0 :: tr))).keepAlive = c
  have hbits : ∀ n : Nat, n < 4 → ∀ i, 2 ≤ i → ¬ n.testBit i = true := by
    intro n hn i hi
    have : n < 2 ^ i := Nat.lt_of_lt_of_le (by omega : n < 2 ^ 2) (Nat.pow_le_pow_right (by decide) hi)
    rw [Nat.testBit_lt_two_pow this]; simp
  unfold bit
  cases a <;> cases c <;> exact ⟨by decide, by decide, hbits _ (by decide)⟩

/-- **C49, partial** (missing, because false: a Content-Length that does not fit in `size_t` is reported modulo 2^sizeBits, and the length
2^64 - 1 as 0). After a complete header section, contentLength is the Content-Length the parser found. -/
theorem C49_content_length_partial {w : World PLog σ} (hp : RecvPre strict P cfg T recv resp rh b rb w.mem) (fuel : Nat) :
    ∃ r w' evs, HTTPClient_ReceiveAndParseHttpResponse P cfg fuel (some T) (some resp) (some rh) w = (r, w') ∧ w'.log = w.log ++ evs ∧
      ∀ st resp', r = .ok (st, resp') → ∀ cl, (view (obsOf evs)).contentLength = some cl →
        resp'.areHeadersComplete = 1 ∧
        (cl.toNat < 2 ^ cfg.sizeBits → cl.toNat ≠ 2 ^ 64 - 1 → resp'.contentLength = cl.toNat) ∧
        (cl.toNat = 2 ^ 64 - 1 → resp'.contentLength = 0) ∧
        (cl.toNat ≠ 2 ^ 64 - 1 → resp'.contentLength = cl.toNat % 2 ^ cfg.sizeBits) := by
  obtain ⟨r, w', t0, tr, e, hl, hev, hfr, h⟩ := receive_spec hp fuel
  refine ⟨r, w', _, e, hl, ?_⟩
  intro st resp' hr cl hcl
  rcases h with ⟨rfl, h1⟩ | ⟨lst, total, h, st, resp', rfl, h1, h2, h3⟩
  · cases hr
  simp only [Run.ok.injEq, Prod.mk.injEq] at hr
  obtain ⟨rfl, rfl⟩ := hr
  rcases returned h2 h3 with ⟨h4, _, _, h5⟩ | ⟨ph, base, lo, ht, hp1, hp2, h4, h5⟩
  · rw [h5] at hcl; cases hcl
  have h6 : resp'.areHeadersComplete = 1 ∧ resp'.contentLength = reportLen cfg resp.contentLength (some cl) := by
    have q1 := ht.core.ahc
    have q2 := ht.core.clen
    rw [hcl] at q1 q2
    rw [h4]; split <;> exact ⟨q1, q2⟩
  have hm : cl ≠ 18446744073709551615 ↔ cl.toNat ≠ 2 ^ 64 - 1 := by
    rw [Ne, ← UInt64.toNat_inj]; rfl
  simp only [reportLen] at h6
  refine ⟨h6.1, fun q1 q2 => ?_, fun q1 => ?_, fun q1 => ?_⟩
  · rw [h6.2, if_pos (hm.mpr q2), Nat.mod_eq_of_lt q1]
  · rw [h6.2, if_neg (fun h => hm.mp h q1)]
  · rw [h6.2, if_pos (hm.mpr q1)]

/-- **C59.** Receiving does not stop early: HTTPNoResponse and HTTPPartialResponse are only returned after a receive call that delivered nothing, at a
time when the retry timeout had expired (or there is no clock). -/
theorem C59_no_early_stop {w : World PLog σ} (hp : RecvPre strict P cfg T recv resp rh b rb w.mem) (fuel : Nat) :
    ∃ r w' t0 evs, HTTPClient_ReceiveAndParseHttpResponse P cfg fuel (some T) (some resp) (some rh) w = (r, w') ∧
      w'.log = w.log ++ .time t0 :: evs ∧
      ∀ st resp', r = .ok (st, resp') → st = .partialResponse ∨ (st = .noResponse ∧ (received evs).length < resp.bufferLen) →
        ∃ pre off len t post, evs = pre ++ .recv off len 0 [] :: .time t :: post ∧ recvs post = [] ∧
          (resp.getTime.isZero = true ∨ cfg.recvTimeoutMs ≤ t - lastRecv t0 pre) := by
  obtain ⟨r, w', t0, tr, e, hl, hev, hfr, h⟩ := receive_spec hp fuel
  refine ⟨r, w', t0, tr, e, hl, ?_⟩
  intro st resp' hr hst
  rcases h with ⟨rfl, h1⟩ | ⟨lst, total, h, st, resp', rfl, h1, h2, h3⟩
  · cases hr
  simp only [Run.ok.injEq, Prod.mk.injEq] at hr
  obtain ⟨rfl, rfl⟩ := hr
  rcases h1.ends _ rfl with ⟨h4, _⟩ | ⟨pre, er, ep, h4, h5⟩
  · exfalso
    rcases h3 with ⟨h3, _⟩ | ⟨h3, _⟩ | ⟨_, _, _, h3⟩
    · rw [h3] at h4; cases h4
    · rw [h3] at h4; cases h4
    · rw [h3, h4] at hst; simp at hst
  obtain ⟨_, hne, h6⟩ := returned_why h1 h2 h3 (pre := .time t0 :: pre) (by rw [h4]; rfl)
  have hle := received_le hev
  have her : er = .ok ∨ er = .pausedUpgrade := Classical.byContradiction fun hx => by
    by_cases e1 : er = .paused
    · rw [if_pos e1] at h6; rw [h6] at hst; simp at hst
    · rw [if_neg e1, if_neg hx] at h6
      rw [h6] at hst
      cases er <;> simp [processLlhttpError] at hst hne
  have hnp : er ≠ .paused := by rcases her with rfl | rfl <;> simp
  rw [if_neg hnp, if_pos her] at h6
  have hnc : msgState (.time t0 :: tr) ≠ .complete := by
    intro hc; rw [hc] at h6; rw [h6] at hst; simp [finalStatus] at hst
  have hlt : (received (Ev.time t0 :: tr)).length ≠ resp.bufferLen := by
    intro hc
    rcases hst with hst | ⟨_, hst⟩
    · rw [h6, hc] at hst
      unfold finalStatus at hst
      revert hst
      cases msgState (Ev.time t0 :: tr) <;> simp
      split <;> simp
    · have : received (Ev.time t0 :: tr) = received tr := rfl
      rw [this] at hc; omega
  have hok : processLlhttpError er = .success := by rcases her with rfl | rfl <;> rfl
  obtain ⟨pre1, off, len, t, seg, e1, e2, e3⟩ := h1.stop_why pre er ep h4 (by simp) hok hnc hlt
  refine ⟨pre1, off, len, t, _, e1, by simp [recvs, e2.received.2.2], ?_⟩
  unfold retryTimeout at e3
  by_cases hz : resp.getTime.isZero = true
  · exact .inl hz
  · right; simpa [hz] using e3

/-- **C59, with HTTP_RESPONSE_DO_NOT_PARSE_BODY_FLAG.** HTTPSuccess without a complete header section, while there is room in the buffer, is also only
returned after a receive call that delivered nothing, at a time when the retry timeout had expired (or there is no clock). -/
theorem C59_no_early_success {w : World PLog σ} (hp : RecvPre strict P cfg T recv resp rh b rb w.mem) (fuel : Nat) :
    ∃ r w' t0 evs, HTTPClient_ReceiveAndParseHttpResponse P cfg fuel (some T) (some resp) (some rh) w = (r, w') ∧
      w'.log = w.log ++ .time t0 :: evs ∧
      ∀ resp', r = .ok (.success, resp') → (view (obsOf evs)).contentLength = none → (received evs).length < resp.bufferLen →
        ∃ pre off len t post, evs = pre ++ .recv off len 0 [] :: .time t :: post ∧ recvs post = [] ∧
          (resp.getTime.isZero = true ∨ cfg.recvTimeoutMs ≤ t - lastRecv t0 pre) := by
  obtain ⟨r, w', t0, tr, e, hl, hev, hfr, h⟩ := receive_spec hp fuel
  refine ⟨r, w', t0, tr, e, hl, ?_⟩
  intro resp' hr hcl hlt
  rcases h with ⟨rfl, h1⟩ | ⟨lst, total, h, st, resp', rfl, h1, h2, h3⟩
  · cases hr
  simp only [Run.ok.injEq, Prod.mk.injEq] at hr
  obtain ⟨rfl, rfl⟩ := hr
  have hcl' : (view (obsOf (.time t0 :: tr))).contentLength = none := hcl
  have hlt' : (received (Ev.time t0 :: tr)).length ≠ resp.bufferLen := by
    have : received (Ev.time t0 :: tr) = received tr := rfl
    rw [this]; omega
  rcases h1.ends _ rfl with ⟨h4, _⟩ | ⟨pre, er, ep, h4, h5⟩
  · exfalso
    rcases h3 with ⟨h3, _⟩ | ⟨h3, _⟩ | ⟨_, _, _, h3⟩
    · rw [h3] at h4; cases h4
    · rw [h3] at h4; cases h4
    · rw [h4] at h3; cases h3
  obtain ⟨hl6, hne, h6⟩ := returned_why h1 h2 h3 (pre := .time t0 :: pre) (by rw [h4]; rfl)
  rcases returned h2 h3 with ⟨h7, _⟩ | ⟨ph, base, lo, ht, hp1, hp2, h7, h8⟩
  · cases h7
  have hlate : ph.late → False := fun h => by have := ht.x.late h; rw [hcl'] at this; cases this
  have hnp : er ≠ .paused := by
    rintro rfl
    exact hlate (by rw [hp1.mp hl6]; trivial)
  have her : er = .ok ∨ er = .pausedUpgrade := Classical.byContradiction fun hx => by
    rw [if_neg hnp, if_neg hx] at h6
    revert h6
    cases er <;> simp [processLlhttpError] at hx hne hnp ⊢
  have hnc : msgState (.time t0 :: tr) ≠ .complete := by
    intro hc
    have hpr := ht.prog
    unfold msgState at hc
    rw [hc] at hpr
    apply hlate
    cases ph <;> simp [Phase.msg] at hpr <;> trivial
  have hok : processLlhttpError er = .success := by rcases her with rfl | rfl <;> rfl
  obtain ⟨pre1, off, len, t, seg, e1, e2, e3⟩ := h1.stop_why pre er ep h4 (by simp) hok hnc hlt'
  refine ⟨pre1, off, len, t, _, e1, by simp [recvs, e2.received.2.2], ?_⟩
  unfold retryTimeout at e3
  by_cases hz : resp.getTime.isZero = true
  · exact .inl hz
  · right; simpa [hz] using e3

theorem calls_flatten (evs : List (Ev PLog)) : (calls evs).flatten = parsed evs := by
  induction evs with
  | nil => rfl
  | cons x xs ih => cases x <;> simp [calls, parsed, ih]

/-- What is known about a call that returned, as a function of the data received and how it was cut. -/
theorem returned_fed {w w' : World PLog σ} {st : Status} {resp' : Resp σ} {evs : List (Ev PLog)} {fuel : Nat}
    (hp : RecvPre strict P cfg T recv resp rh b rb w.mem)
    (e : HTTPClient_ReceiveAndParseHttpResponse P cfg fuel (some T) (some resp) (some rh) w = (.ok (st, resp'), w'))
    (hl : w'.log = w.log ++ evs) (hne : st ≠ .networkError) :
    ∃ er, feedAll P (answers (headersAnswer resp.respOptionFlags (startsHead w.mem rb))) (calls evs) = (obsOf evs, (received evs).length,
        (feedAll P (answers (headersAnswer resp.respOptionFlags (startsHead w.mem rb))) (calls evs)).2.2.1, er) ∧
      (calls evs).flatten = received evs ∧ er ≠ .invalidEofState ∧
      (headersOnly resp.respOptionFlags → er = .paused → ∃ n, (view (obsOf evs)).headersEnd = some n ∧
        bodyBytes w'.mem resp' = (received evs).drop n) ∧
      (headersOnly resp.respOptionFlags → er ≠ .paused → bodyBytes w'.mem resp' = []) ∧
      resp'.respFlags = connFlags (view (obsOf evs)).connClose (view (obsOf evs)).keepAlive ∧
      st = (if er = .paused then .success else if er = .ok ∨ er = .pausedUpgrade then
        finalStatus (msgState evs) (decide ((received evs).length = resp.bufferLen))
          (decide (resp.respOptionFlags &&& DO_NOT_PARSE_BODY_FLAG ≠ 0)) else processLlhttpError er) := by
  obtain ⟨r, w1, t0, tr, e1, hl1, hev, hfr, h⟩ := receive_spec hp fuel
  rw [e] at e1
  cases e1
  obtain rfl : evs = .time t0 :: tr := List.append_cancel_left (hl.symm.trans hl1)
  rcases h with ⟨h, _⟩ | ⟨lst, total, h, st, resp', hr, h1, h2, h3⟩
  · cases h
  cases hr
  have hfl : (calls (Ev.time t0 :: tr)).flatten = received (.time t0 :: tr) := by rw [calls_flatten, h2.parsedAll]
  have hpos := feedAll_pos P (answers (headersAnswer resp.respOptionFlags (startsHead w.mem rb))) (calls (.time t0 :: tr))
  obtain ⟨f1, f2⟩ := h2.fed
  rw [policy_eq] at f1 f2
  have hlst : lst ≠ .networkError := by
    intro hx
    rcases h3 with ⟨h3, _⟩ | ⟨h3, _⟩ | ⟨_, _, _, h3⟩
    · rw [h3] at hx; cases hx
    · rw [h3] at hx; cases hx
    · exact hne (h3.trans hx)
  have hlst2 := (f2.resolve_left fun h => hlst h.1)
  obtain ⟨hlst2, hnoe⟩ := hlst2
  generalize hF : feedAll P (answers (headersAnswer resp.respOptionFlags (startsHead w.mem rb))) (calls (.time t0 :: tr)) = F at f1 f2 hlst2 hnoe hpos
  obtain ⟨F1, F2, F3, er⟩ := F
  dsimp only at f1 f2 hlst2 hnoe hpos
  rcases returned h2 h3 with ⟨h4, _⟩ | ⟨ph, base, lo, ht, hp1, hp2, h4, h5⟩
  · exact absurd h4 hne
  refine ⟨er, ?_, hfl, hnoe, ?_, ?_, ?_, ?_⟩
  · rw [← f1, hpos, hfl]
  · intro hfl1 her
    have hpp : lst = .parserPaused := by rw [hlst2, her]; rfl
    have hph := hp1.mp hpp
    obtain ⟨hfl2, os, o, e1, ⟨a, c, d, q, e2⟩, e3⟩ := ht.pausedAt hph
    refine ⟨lo, ?_, ?_⟩
    · rw [e1, view_snoc]; simp [View.step, e2, e3]
    · rw [if_pos hpp] at h4
      rw [h4]
      have hsp := (ht.core.opted hfl2).2
      have hag : ∀ i, i < (received (Ev.time t0 :: tr)).length → (w'.mem b)[i]? = (received (Ev.time t0 :: tr))[i]? := by
        intro i hi
        apply ht.core.agree i hi
        intro p q hpq; rw [hsp] at hpq; cases hpq
      have hlo := ht.core.lo_le
      unfold bodyBytes
      simp only [ht.core.pbuf, hp.buf]
      rw [slice_congr (t := received (Ev.time t0 :: tr)) (fun i h1 h2 => hag i (by omega))]
      unfold slice
      rw [List.take_of_length_le (by simp)]
  · intro hfl1 her
    have hpp : lst ≠ .parserPaused := by rw [hlst2]; exact fun h => her (processLlhttpError_paused.mp h)
    rw [if_neg hpp] at h4
    rw [h4]
    unfold bodyBytes
    rw [ht.core.bodyPtr, (ht.core.opted ((headersOnly_iff _).mpr hfl1)).2]
    cases h.resp.pBuffer <;> rfl
  · rw [h4]; split <;> exact ht.core.flags
  · rw [h5, hlst2]
    by_cases e1 : er = .paused
    · subst e1; rfl
    · rw [if_neg e1, if_neg (fun h => e1 (processLlhttpError_paused.mp h))]
      by_cases e2 : er = .ok ∨ er = .pausedUpgrade
      · rw [if_pos e2, if_pos (by rcases e2 with rfl | rfl <;> rfl)]
      · rw [if_neg e2, if_neg (fun h => e2 (processLlhttpError_success h hnoe))]

/-- A status that means the parser found no error. -/
def noAlert (st : Status) : Prop := st = .success ∨ st = .noResponse ∨ st = .insufficientMemory ∨ st = .partialResponse

/-- Two calls for the same request that receive the same bytes, into buffers of any size: the statuses are the same but for HTTPInsufficientMemory instead of
HTTPPartialResponse where the buffer is full. -/
theorem same_received {σ₁ σ₂ : Type} {T₁ : Transport σ₁} {T₂ : Transport σ₂} {recv₁ recv₂} {resp₁ resp₁' : Resp σ₁}
    {resp₂ resp₂' : Resp σ₂} {rh₁ rh₂ : ReqHeaders} {b₁ b₂ rb₁ rb₂ : Nat} {w₁ w₁' : World PLog σ₁} {w₂ w₂' : World PLog σ₂}
    {st₁ st₂ : Status} {evs₁ evs₂ : List (Ev PLog)} {fuel₁ fuel₂ : Nat} (hcf : ChunkFree P)
    (hp₁ : RecvPre strict P cfg T₁ recv₁ resp₁ rh₁ b₁ rb₁ w₁.mem) (hp₂ : RecvPre strict P cfg T₂ recv₂ resp₂ rh₂ b₂ rb₂ w₂.mem)
    (e₁ : HTTPClient_ReceiveAndParseHttpResponse P cfg fuel₁ (some T₁) (some resp₁) (some rh₁) w₁ = (.ok (st₁, resp₁'), w₁'))
    (e₂ : HTTPClient_ReceiveAndParseHttpResponse P cfg fuel₂ (some T₂) (some resp₂) (some rh₂) w₂ = (.ok (st₂, resp₂'), w₂'))
    (hl₁ : w₁'.log = w₁.log ++ evs₁) (hl₂ : w₂'.log = w₂.log ++ evs₂)
    (hreq : headerBlock w₁.mem rh₁ = headerBlock w₂.mem rh₂) (hopt : resp₁.respOptionFlags = resp₂.respOptionFlags)
    (hne₁ : st₁ ≠ .networkError) (hne₂ : st₂ ≠ .networkError)
    (hrecv : received evs₁ = received evs₂) :
    (st₁ = st₂ ∨ (st₁ = .insufficientMemory ∧ st₂ = .partialResponse ∧ (received evs₁).length = resp₁.bufferLen ∧ resp₁.bufferLen ≠ resp₂.bufferLen) ∨
      (st₁ = .partialResponse ∧ st₂ = .insufficientMemory ∧ (received evs₁).length = resp₂.bufferLen ∧ resp₁.bufferLen ≠ resp₂.bufferLen)) ∧
    (noAlert st₁ → resp₁'.statusCode = resp₂'.statusCode ∧ resp₁'.headerCount = resp₂'.headerCount ∧ resp₁'.respFlags = resp₂'.respFlags ∧
      bodyBytes w₁'.mem resp₁' = bodyBytes w₂'.mem resp₂' ∧
      (strict = true → resp₁.pHeaderParsingCallback.isSome → resp₂.pHeaderParsingCallback.isSome → reported evs₁ = reported evs₂) ∧
      ((view (obsOf evs₁)).contentLength.isSome → resp₁'.contentLength = resp₂'.contentLength ∧
        resp₁'.areHeadersComplete = 1 ∧ resp₂'.areHeadersComplete = 1)) := by
  have hhead : startsHead w₁.mem rb₁ = startsHead w₂.mem rb₂ := by
    unfold headerBlock at hreq
    rw [hp₁.reqBuf, hp₂.reqBuf] at hreq
    have h := congrArg (List.take 4) hreq
    simp only [List.take_take] at h
    rw [Nat.min_eq_left (by have := hp₁.reqLen; omega), Nat.min_eq_left (by have := hp₂.reqLen; omega)] at h
    unfold startsHead
    rw [h]
  obtain ⟨er₁, f1, f2, f3, f4, f5, f7, f6⟩ := returned_fed hp₁ e₁ hl₁ hne₁
  obtain ⟨er₂, g1, g2, g3, g4, g5, g7, g6⟩ := returned_fed hp₂ e₂ hl₂ hne₂
  rw [← hopt, ← hhead] at g1
  rw [← hopt] at g4 g5
  have hru : headersAnswer resp₁.respOptionFlags (startsHead w₁.mem rb₁) ≠ .user := by
    unfold headersAnswer; split
    · simp
    · split <;> simp
  have hcf1 := hcf _ (calls evs₁) (calls evs₂) hru (by rw [f2, g2, hrecv])
  rw [f1, g1] at hcf1
  dsimp only at hcf1
  obtain ⟨hv, hview⟩ := hcf1
  subst hv
  have hstEq : (st₁ = st₂ ∨ (st₁ = .insufficientMemory ∧ st₂ = .partialResponse ∧ (received evs₁).length = resp₁.bufferLen ∧ resp₁.bufferLen ≠ resp₂.bufferLen) ∨
      (st₁ = .partialResponse ∧ st₂ = .insufficientMemory ∧ (received evs₁).length = resp₂.bufferLen ∧ resp₁.bufferLen ≠ resp₂.bufferLen)) := by
    by_cases hok : er₁ = .ok ∨ er₁ = .paused ∨ er₁ = .pausedUpgrade
    · rw [msgState, ← hview hok, ← hrecv, ← hopt] at g6
      rw [msgState] at f6
      by_cases hpz : er₁ = .paused
      · rw [if_pos hpz] at f6 g6
        exact .inl (f6.trans g6.symm)
      · have hok2 : er₁ = .ok ∨ er₁ = .pausedUpgrade := hok.elim .inl fun h => h.elim (fun h => absurd h hpz) .inr
        rw [if_neg hpz, if_pos hok2] at f6 g6
        by_cases d1 : (received evs₁).length = resp₁.bufferLen
        · by_cases d2 : (received evs₁).length = resp₂.bufferLen
          · rw [decide_eq_true d1] at f6
            rw [decide_eq_true d2] at g6
            exact .inl (f6.trans g6.symm)
          · rw [decide_eq_true d1] at f6
            rw [decide_eq_false d2] at g6
            have hne : resp₁.bufferLen ≠ resp₂.bufferLen := fun h => d2 (d1.trans h)
            generalize (view (obsOf evs₁)).state = s at f6 g6
            generalize decide (resp₁.respOptionFlags &&& DO_NOT_PARSE_BODY_FLAG ≠ 0) = fl at f6 g6
            cases s <;> cases fl <;> simp [finalStatus] at f6 g6 <;> simp [f6, g6, d1, hne]
        · by_cases d2 : (received evs₁).length = resp₂.bufferLen
          · rw [decide_eq_false d1] at f6
            rw [decide_eq_true d2] at g6
            have hne : resp₁.bufferLen ≠ resp₂.bufferLen := fun h => d1 (d2.trans h.symm)
            generalize (view (obsOf evs₁)).state = s at f6 g6
            generalize decide (resp₁.respOptionFlags &&& DO_NOT_PARSE_BODY_FLAG ≠ 0) = fl at f6 g6
            cases s <;> cases fl <;> simp [finalStatus] at f6 g6 <;> simp [f6, g6, d2, hne]
          · rw [decide_eq_false d1] at f6
            rw [decide_eq_false d2] at g6
            exact .inl (f6.trans g6.symm)
    · rw [if_neg (fun h => hok (.inr (.inl h))), if_neg (fun h => hok (h.elim .inl fun h => .inr (.inr h)))] at f6 g6
      exact .inl (f6.trans g6.symm)
  refine ⟨hstEq, fun hna => ?_⟩
  have hok : er₁ = .ok ∨ er₁ = .paused ∨ er₁ = .pausedUpgrade := Classical.byContradiction fun hno => by
    rw [if_neg (fun h => hno (.inr (.inl h))), if_neg (fun h => hno (h.elim .inl fun h => .inr (.inr h)))] at f6
    rw [f6] at hna
    unfold noAlert at hna
    cases er₁ <;> simp [processLlhttpError] at hna hno f3
  have hvw := hview hok
  obtain ⟨r, w, evs, h1, h2, h3⟩ := C39_headers_reported hp₁ fuel₁
  rw [e₁] at h1; cases h1
  obtain rfl : evs₁ = evs := List.append_cancel_left (hl₁.symm.trans h2)
  obtain ⟨i1, _, i2⟩ := h3 _ _ rfl
  obtain ⟨r, w, evs, h1, h2, h3⟩ := C39_headers_reported hp₂ fuel₂
  rw [e₂] at h1; cases h1
  obtain rfl : evs₂ = evs := List.append_cancel_left (hl₂.symm.trans h2)
  obtain ⟨j1, _, j2⟩ := h3 _ _ rfl
  have i2 := i2 (.inl hne₁)
  have j2 := j2 (.inl hne₂)
  refine ⟨by rw [i2.2, j2.2, hvw], by rw [i2.1, j2.1, hvw], ?_, ?_, fun s c1 c2 => by rw [i1 s c1, j1 s c2, hvw], ?_⟩
  · rw [f7, g7, hvw]
  · by_cases hflag : headersOnly resp₁.respOptionFlags
    · by_cases hpz : er₁ = .paused
      · obtain ⟨n, n1, n2⟩ := f4 hflag hpz
        obtain ⟨n', n1', n2'⟩ := g4 hflag hpz
        rw [hvw, n1'] at n1; cases n1
        rw [n2, n2', hrecv]
      · rw [f5 hflag hpz, g5 hflag hpz]
    · obtain ⟨r, w, evs, h1, h2, h3⟩ := C40_body_assembled hp₁ fuel₁ hflag
      rw [e₁] at h1; cases h1
      obtain rfl : evs₁ = evs := List.append_cancel_left (hl₁.symm.trans h2)
      obtain ⟨r, w, evs, h1, h2, h4⟩ := C40_body_assembled hp₂ fuel₂ (hopt ▸ hflag)
      rw [e₂] at h1; cases h1
      obtain rfl : evs₂ = evs := List.append_cancel_left (hl₂.symm.trans h2)
      rw [(h3 _ _ rfl (.inl hne₁)).1, (h4 _ _ rfl (.inl hne₂)).1, hvw]
  · intro hcl
    obtain ⟨cl, hcl⟩ := Option.isSome_iff_exists.mp hcl
    obtain ⟨r, w, evs, h1, h2, h3⟩ := C49_content_length_partial hp₁ fuel₁
    rw [e₁] at h1; cases h1
    obtain rfl : evs₁ = evs := List.append_cancel_left (hl₁.symm.trans h2)
    obtain ⟨r, w, evs, h1, h2, h4⟩ := C49_content_length_partial hp₂ fuel₂
    rw [e₂] at h1; cases h1
    obtain rfl : evs₂ = evs := List.append_cancel_left (hl₂.symm.trans h2)
    obtain ⟨k1, _, k2, k3⟩ := h3 _ _ rfl cl hcl
    obtain ⟨l1, _, l2, l3⟩ := h4 _ _ rfl cl (hvw ▸ hcl)
    refine ⟨?_, k1, l1⟩
    by_cases hm : cl.toNat = 2 ^ 64 - 1
    · rw [k2 hm, l2 hm]
    · rw [k3 hm, l3 hm]

/-- **C44.** Two calls (with any environments, transports and clocks) for the same request that receive the same bytes, however cut, return the
same status; and unless that is an error, the same status code, headers, header count, flags, body and, when the header section is complete, content
length. (`ChunkFree`: the parser itself does not depend on how its input is cut; the reference parser has that property.) -/
theorem C44_fragmentation_independent {σ₁ σ₂ : Type} {T₁ : Transport σ₁} {T₂ : Transport σ₂} {recv₁ recv₂} {resp₁ resp₁' : Resp σ₁}
    {resp₂ resp₂' : Resp σ₂} {rh₁ rh₂ : ReqHeaders} {b₁ b₂ rb₁ rb₂ : Nat} {w₁ w₁' : World PLog σ₁} {w₂ w₂' : World PLog σ₂}
    {st₁ st₂ : Status} {evs₁ evs₂ : List (Ev PLog)} {fuel₁ fuel₂ : Nat} (hcf : ChunkFree P)
    (hp₁ : RecvPre strict P cfg T₁ recv₁ resp₁ rh₁ b₁ rb₁ w₁.mem) (hp₂ : RecvPre strict P cfg T₂ recv₂ resp₂ rh₂ b₂ rb₂ w₂.mem)
    (e₁ : HTTPClient_ReceiveAndParseHttpResponse P cfg fuel₁ (some T₁) (some resp₁) (some rh₁) w₁ = (.ok (st₁, resp₁'), w₁'))
    (e₂ : HTTPClient_ReceiveAndParseHttpResponse P cfg fuel₂ (some T₂) (some resp₂) (some rh₂) w₂ = (.ok (st₂, resp₂'), w₂'))
    (hl₁ : w₁'.log = w₁.log ++ evs₁) (hl₂ : w₂'.log = w₂.log ++ evs₂)
    (hreq : headerBlock w₁.mem rh₁ = headerBlock w₂.mem rh₂) (hopt : resp₁.respOptionFlags = resp₂.respOptionFlags)
    (hlen : resp₁.bufferLen = resp₂.bufferLen) (hne₁ : st₁ ≠ .networkError) (hne₂ : st₂ ≠ .networkError)
    (hrecv : received evs₁ = received evs₂) :
    st₁ = st₂ ∧
    (noAlert st₁ → resp₁'.statusCode = resp₂'.statusCode ∧ resp₁'.headerCount = resp₂'.headerCount ∧ resp₁'.respFlags = resp₂'.respFlags ∧
      bodyBytes w₁'.mem resp₁' = bodyBytes w₂'.mem resp₂' ∧
      (strict = true → resp₁.pHeaderParsingCallback.isSome → resp₂.pHeaderParsingCallback.isSome → reported evs₁ = reported evs₂) ∧
      ((view (obsOf evs₁)).contentLength.isSome → resp₁'.contentLength = resp₂'.contentLength ∧
        resp₁'.areHeadersComplete = 1 ∧ resp₂'.areHeadersComplete = 1)) := by
  obtain ⟨h1, h2⟩ := same_received hcf hp₁ hp₂ e₁ e₂ hl₁ hl₂ hreq hopt hne₁ hne₂ hrecv
  exact ⟨h1.elim id fun h => h.elim (fun h => absurd hlen h.2.2.2) (fun h => absurd hlen h.2.2.2), h2⟩

/-- What the library tells the parser about the body when the header section ends. -/
def bodyAnswer (flags : UInt32) (requestBlock : Bytes) : CbRet :=
  if flags.toNat % 2 = 1 then .pause else if requestBlock.take 4 = ascii "HEAD" then .noBody else .continue_

/-- **C45, partial** (missing, because false: a request whose method merely begins with "HEAD" is not a HEAD request, but treated as one). What the
parser reports is exactly what it reports when told at the end of the header section that there is no body, if the request block, as it is when the
call begins, starts with "HEAD", and to go on otherwise. For a HEAD request no body data is found. The request buffer may be the response buffer. -/
theorem C45_head_no_body_partial {w : World PLog σ} (hp : RecvPre strict P cfg T recv resp rh b rb w.mem) (fuel : Nat) :
    ∃ r w' evs, HTTPClient_ReceiveAndParseHttpResponse P cfg fuel (some T) (some resp) (some rh) w = (r, w') ∧ w'.log = w.log ++ evs ∧
      (r ≠ .more → obsOf evs = (feedAll P (answers (bodyAnswer resp.respOptionFlags (headerBlock w.mem rh))) (calls evs)).1) ∧
      (isHeadRequest (headerBlock w.mem rh) → r ≠ .more → ∀ o ∈ obsOf evs, ¬ isBodyObs o) ∧
      (isHeadRequest (headerBlock w.mem rh) → ¬ headersOnly resp.respOptionFlags → ∀ st resp', r = .ok (st, resp') →
        st ≠ .networkError ∨ obsOf evs ≠ [] → resp'.pBody = none ∧ resp'.bodyLen = 0) := by
  have hblk : headerBlock w.mem rh = (w.mem rb).take rh.headersLen := by unfold headerBlock; rw [hp.reqBuf]
  have h4 : (headerBlock w.mem rh).take 4 = (w.mem rb).take 4 := by
    rw [hblk, List.take_take, Nat.min_eq_left (by have := hp.reqLen; omega)]
  have hans : bodyAnswer resp.respOptionFlags (headerBlock w.mem rh) = headersAnswer resp.respOptionFlags (startsHead w.mem rb) := by
    unfold bodyAnswer headersAnswer startsHead
    rw [h4]
    by_cases hf : resp.respOptionFlags.toNat % 2 = 1
    · rw [if_pos hf, if_pos ((headersOnly_iff _).mpr hf)]
    · rw [if_neg hf, if_neg (fun h => hf ((headersOnly_iff _).mp h))]
      simp
  have hhead : isHeadRequest (headerBlock w.mem rh) → startsHead w.mem rb = true := by
    intro h
    unfold isHeadRequest at h
    unfold startsHead
    rw [decide_eq_true_eq, ← h4]
    obtain ⟨t, ht⟩ := h
    rw [← ht]; rfl
  obtain ⟨r, w', t0, tr, e, hl, hev, hfr, h⟩ := receive_spec hp fuel
  refine ⟨r, w', _, e, hl, ?_, ?_, ?_⟩
  · intro hr
    rcases h with ⟨rfl, h1⟩ | ⟨lst, total, h, st, resp', rfl, h1, h2, h3⟩
    · exact absurd rfl hr
    rw [hans, ← policy_eq]; exact h2.fed.1
  · intro hh hr o ho hb
    rcases h with ⟨rfl, h1⟩ | ⟨lst, total, h, st, resp', rfl, h1, h2, h3⟩
    · exact absurd rfl hr
    obtain ⟨ph0, base0, lo0, ht0, _⟩ := h2.tinv
    have := (ht0.headNb (hhead hh)).2 o ho
    rw [(isBody_iff o).mpr hb] at this; cases this
  · intro hh hflag st resp' hr hne
    rcases h with ⟨rfl, h1⟩ | ⟨lst, total, h, st, resp', rfl, h1, h2, h3⟩
    · cases hr
    simp only [Run.ok.injEq, Prod.mk.injEq] at hr
    obtain ⟨rfl, rfl⟩ := hr
    rcases returned h2 h3 with ⟨h4, _, _, h5⟩ | ⟨ph, base, lo, ht, hp1, hp2, h4, h5⟩
    · rcases hne with hne | hne
      · exact absurd h4 hne
      · exact absurd h5 hne
    have hnp : lst ≠ .parserPaused := fun h => hflag ((headersOnly_iff _).mp (ht.pausedAt (hp1.mp h)).1)
    rw [if_neg hnp] at h4
    have hall := (ht.headNb (hhead hh)).2
    have hsp : bodySpan (obsOf (Ev.time t0 :: tr)) = none := by
      rcases bodySpan_spec (obsOf (Ev.time t0 :: tr)) with ⟨h, _⟩ | ⟨p, e, _, ⟨o, ho, hb, _⟩, _⟩
      · exact h
      · rw [hall o ho] at hb; cases hb
    rw [h4]
    refine ⟨by rw [ht.core.bodyPtr, hsp]; rfl, ?_⟩
    rcases ht.core.body with ⟨_, _, h⟩ | ⟨p, e, h, _⟩
    · exact h
    · rw [hsp] at h; cases h

/-! ## C47: reuse of a response object -/

/-- **C47, partial** (missing, because false: when the header section has not been received completely, contentLength and areHeadersComplete keep the
values of an earlier response; and a receive error before any data leaves the whole object untouched). Two calls that differ only in what earlier
responses left in the response object do exactly the same (same network activity, header callbacks, memory) and return the same status; once data
has been parsed, the returned objects are the same but for contentLength and areHeadersComplete, and those are the same once the header section
is complete. -/
theorem C47_reuse_partial {resp₁ resp₂ : Resp σ} {w : World PLog σ} (hp : RecvPre strict P cfg T recv resp₁ rh b rb w.mem)
    (hset : resp₂.pBuffer = resp₁.pBuffer ∧ resp₂.bufferLen = resp₁.bufferLen ∧ resp₂.pHeaderParsingCallback = resp₁.pHeaderParsingCallback ∧
      resp₂.getTime = resp₁.getTime ∧ resp₂.respOptionFlags = resp₁.respOptionFlags) (fuel : Nat) :
    ∃ r₁ r₂ w' evs, HTTPClient_ReceiveAndParseHttpResponse P cfg fuel (some T) (some resp₁) (some rh) w = (r₁, w') ∧
      HTTPClient_ReceiveAndParseHttpResponse P cfg fuel (some T) (some resp₂) (some rh) w = (r₂, w') ∧ w'.log = w.log ++ evs ∧
      ((r₁ = .more ∧ r₂ = .more) ∨ ∃ st resp₁' resp₂', r₁ = .ok (st, resp₁') ∧ r₂ = .ok (st, resp₂') ∧
        (st ≠ .networkError ∨ obsOf evs ≠ [] →
          resp₂' = { resp₁' with contentLength := resp₂'.contentLength, areHeadersComplete := resp₂'.areHeadersComplete } ∧
          ((view (obsOf evs)).contentLength.isSome → resp₂' = resp₁'))) := by
  have hp2 : RecvPre strict P cfg T recv resp₂ rh b rb w.mem := {
    hp with
    buf := hset.1.trans hp.buf
    pos := by rw [hset.2.1]; exact hp.pos
    room := by rw [hset.2.1]; exact hp.room
    size := by rw [hset.2.1]; exact hp.size
    clock := by rw [hset.2.2.2.1]; exact hp.clock
    callback := by rw [hset.2.2.1]; exact hp.callback }
  obtain ⟨r, w', t0, s0, tr, ht0, ea, hl, hev, hfr, h⟩ := receive_spec' hp fuel
  have ht0' : readClock (π := PLog) resp₂.getTime w = (.ok t0, ⟨s0, w.mem, w.log ++ [.time t0]⟩) := by rw [hset.2.2.2.1]; exact ht0
  have e2 := receive_start hp2 fuel ht0'
  have e1 := receive_start hp fuel ht0
  rw [hset.2.2.2.1] at e2
  have hR : StaleR (⟨resp₁, ⟨P.init, .none, false, startsHead w.mem rb, none, none, 0, none, 0⟩⟩ : RS P.St σ)
    ⟨resp₂, ⟨P.init, .none, false, startsHead w.mem rb, none, none, 0, none, 0⟩⟩ := SetUp.bind hset rfl rfl
  have hsim := recvLoop_sim P cfg recv (retryTimeout resp₁.getTime cfg.recvTimeoutMs) b fuel 0 t0 _ _ hR
  rcases h with ⟨rfl, h1⟩ | ⟨lst, total, h, st, resp', rfl, h1, h2, h3, h4, h5⟩
  · have hall := Sim.bind hsim (k := fun x => finishReceive cfg x.1 x.2.1 x.2.2) (l := fun x => finishReceive cfg x.1 x.2.1 x.2.2)
      (Q := fun _ _ => True) (fun x y hxy => by
        obtain ⟨q1, q2, q3⟩ := hxy
        rw [← q1, ← q2]
        exact (finishReceive_sim cfg _ _ _ _ q3).mono fun _ _ _ => trivial) ⟨s0, w.mem, w.log ++ [.time t0]⟩
    rw [← e1, ← e2, ea] at hall
    rcases hq : HTTPClient_ReceiveAndParseHttpResponse P cfg fuel (some T) (some resp₂) (some rh) w with ⟨a | f | _, w2⟩ <;> rw [hq] at hall <;>
      simp only [SimRun, and_false] at hall
    obtain ⟨rfl, _⟩ := hall
    exact ⟨_, _, _, _, ea, rfl, hl, .inl ⟨rfl, rfl⟩⟩
  · have hs1 := hsim ⟨s0, w.mem, w.log ++ [.time t0]⟩
    rw [h4] at hs1
    rcases hq : recvLoop P cfg recv (retryTimeout resp₁.getTime cfg.recvTimeoutMs) b fuel 0 t0
      ⟨resp₂, ⟨P.init, .none, false, startsHead w.mem rb, none, none, 0, none, 0⟩⟩ ⟨s0, w.mem, w.log ++ [.time t0]⟩ with ⟨a | f | _, w2⟩ <;>
      rw [hq] at hs1 <;> simp only [SimRun, and_false] at hs1
    obtain ⟨rfl, q1, q2, q3⟩ := hs1
    obtain ⟨lst', total', h'⟩ := a
    dsimp only at q1 q2 q3
    subst q1 q2
    have hs2 := finishReceive_sim cfg lst total _ _ q3 w'
    rw [h5] at hs2
    rcases hq2 : finishReceive cfg lst total h' w' with ⟨a | f | _, w2⟩ <;> rw [hq2] at hs2 <;> simp only [SimRun, and_false] at hs2
    obtain ⟨rfl, q1, q2, q4⟩ := hs2
    obtain ⟨st', resp2⟩ := a
    dsimp only at q1 q2 q4
    subst q1
    have e3 : HTTPClient_ReceiveAndParseHttpResponse P cfg fuel (some T) (some resp₂) (some rh) w = (.ok (st, resp2), w') := by
      rw [e2, M.bind_apply, hq]
      exact hq2
    refine ⟨_, _, _, _, ea, e3, hl, .inr ⟨st, resp', resp2, rfl, rfl, ?_⟩⟩
    intro hne
    have hb : h.ctx.bound = true := by
      cases hb : h.ctx.bound with
      | true => rfl
      | false =>
        obtain ⟨g1, g2, g3⟩ := h2.fresh hb
        rcases returned h2 h3 with ⟨g4, _⟩ | ⟨ph, base, lo, ht, hp1, hp2, g4, g5⟩
        · rcases hne with hne | hne
          · exact absurd g4 hne
          · exact absurd g2 hne
        · have := ht.core.bound; rw [hb] at this; cases this
    obtain ⟨c, a, g⟩ := q4 hb
    refine ⟨by rw [g], ?_⟩
    intro hcl
    obtain ⟨cl, hcl⟩ := Option.isSome_iff_exists.mp hcl
    obtain ⟨r1, w1, evs1, f1, f2, f3⟩ := C49_content_length_partial hp fuel
    obtain ⟨r2, w2, evs2, f4, f5, f6⟩ := C49_content_length_partial hp2 fuel
    rw [ea] at f1; cases f1
    rw [e3] at f4; cases f4
    obtain rfl := List.append_cancel_left (hl.symm.trans f2)
    obtain rfl := List.append_cancel_left (hl.symm.trans f5)
    obtain ⟨a1, _, a2, a3⟩ := f3 _ _ rfl cl hcl
    obtain ⟨b1, _, b2, b3⟩ := f6 _ _ rfl cl hcl
    have hc : resp2.contentLength = resp'.contentLength := by
      by_cases hm : cl.toNat = 2 ^ 64 - 1
      · rw [a2 hm, b2 hm]
      · rw [a3 hm, b3 hm]
    have ha : resp2.areHeadersComplete = resp'.areHeadersComplete := by rw [a1, b1]
    rw [g] at hc ha ⊢
    dsimp only at hc ha
    subst hc ha
    rfl

/-! ## C51, C52: what follows the body -/

/-- **C51, partial** (missing, because false: a further message that arrives in the same receive call as the end of the first is mixed into what is
reported). Nothing more is requested once the message is complete. -/
theorem C51_one_response_partial {w : World PLog σ} (hp : RecvPre strict P cfg T recv resp rh b rb w.mem) (fuel : Nat) :
    ∃ r w' evs, HTTPClient_ReceiveAndParseHttpResponse P cfg fuel (some T) (some resp) (some rh) w = (r, w') ∧ w'.log = w.log ++ evs ∧
      ∀ pre off len ret data post, evs = pre ++ .recv off len ret data :: post → msgState pre ≠ .complete := by
  obtain ⟨r, w', t0, tr, e, hl, hev, hfr, h⟩ := receive_spec hp fuel
  refine ⟨r, w', _, e, hl, ?_⟩
  intro pre off len ret data post h0
  rcases split_cons h0 with ⟨_, h1, _⟩ | ⟨pre', rfl, h0'⟩
  · cases h1
  have hi : msgState [(.time t0 : Ev PLog)] ≠ .complete := by simp [msgState, view, obsOf, View.empty]
  rcases h with ⟨rfl, h1⟩ | ⟨lst, total, h, st, resp', rfl, h1, h2, h3⟩
  · exact h1.recv_open hi _ _ _ _ _ _ h0'
  · exact h1.recv_open hi _ _ _ _ _ _ h0'

/-- A view in which no header value is pending. -/
def noValue (v : View) : Prop := ∀ f x, v.pending ≠ some (f, some x)

theorem noValue_flush {v : View} : noValue v.flush := by
  intro f x
  unfold View.flush
  split
  · simp
  · rename_i h; exact h f x

theorem noValue_fold {os : List PObs} (hv : ∀ o ∈ os, ∀ off len, o.ev ≠ .headerValue off len) : ∀ {v : View}, noValue v →
    noValue (os.foldl View.step v) := by
  induction os with
  | nil => intro v h; exact h
  | cons o os ih =>
    intro v h
    refine ih (fun o' ho' => hv o' (List.mem_cons_of_mem _ ho')) ?_
    have hov := hv o List.mem_cons_self
    intro f x
    unfold View.step
    cases ho : o.ev with
    | headerValue off len => exact absurd ho (hov off len)
    | status _ _ _ => simp
    | statusComplete _ => simp
    | headerField _ _ =>
      dsimp only
      have := noValue_flush (v := v)
      cases hq : v.flush.pending with
      | none => simp
      | some p =>
        obtain ⟨a, b⟩ := p
        dsimp only
        cases b with
        | none => simp
        | some y => exact absurd hq (this a y)
    | headersComplete _ _ _ _ => exact noValue_flush f x
    | messageBegin => exact h f x
    | body _ _ => exact h f x
    | messageComplete => exact h f x

/-- **C52, partial** (missing, because false: the last trailer field is not reported). Of all headers the parser found, trailers included, at most the
last has not been reported; and none is missing when no header value came after the end of the header section. -/
theorem C52_trailers_partial {w : World PLog σ} (hp : RecvPre true P cfg T recv resp rh b rb w.mem) (fuel : Nat)
    (hcb : resp.pHeaderParsingCallback.isSome) :
    ∃ r w' evs, HTTPClient_ReceiveAndParseHttpResponse P cfg fuel (some T) (some resp) (some rh) w = (r, w') ∧ w'.log = w.log ++ evs ∧
      ∀ st resp', r = .ok (st, resp') →
        (∃ tail, tail.length ≤ 1 ∧ reported evs ++ tail = allHeaders (obsOf evs)) ∧
        (∀ os o os', obsOf evs = os ++ o :: os' → isHeadersEnd o → (∀ o' ∈ os', ∀ off len, o'.ev ≠ .headerValue off len) →
          reported evs = allHeaders (obsOf evs)) := by
  obtain ⟨r, w', evs, e, hl, h⟩ := C39_headers_reported hp fuel
  refine ⟨r, w', evs, e, hl, ?_⟩
  intro st resp' hr
  have h1 := (h st resp' hr).1 rfl hcb
  rw [h1]
  unfold allHeaders
  refine ⟨?_, ?_⟩
  · unfold View.flush
    split
    · exact ⟨[_], Nat.le_refl _, rfl⟩
    · exact ⟨[], by simp, by simp⟩
  · intro os o os' h2 ho h3
    have : noValue (view (obsOf evs)) := by
      rw [h2]
      unfold view
      rw [List.foldl_append, List.foldl_cons]
      refine noValue_fold h3 ?_
      obtain ⟨a, cl, cc, ka, ho⟩ := ho
      intro f x
      unfold View.step
      rw [ho]
      exact noValue_flush f x
    unfold View.flush
    split
    · rename_i f x hq; exact absurd hq (this f x)
    · rfl

end CoreHttp.Props

import Verif.Props.Discover
import Verif.Spec.Versions

/-! # C113: downloading a file that changes on the server meanwhile -/

namespace CoreHttp.Props
open CoreHttp Spec Ref Machine
variable {σ : Type} {cfg : Cfg} {T : Transport σ} {send : σ → Bytes → Int × σ} {recv : σ → Nat → Int × Bytes × σ}
  {resp : Resp σ} {rh h : ReqHeaders} {b rb : Nat} {serves : Bytes → Bytes → Prop} {got rest : σ → Bytes}

/-- Looking a field of a response up in a response object that reports it. -/
theorem lookup_value {w : World PLog σ} {r : Response} {name v : Bytes} (hb : resp.pBuffer = some b) (hroom : resp.bufferLen ≤ (w.mem b).length)
    (ok : r.Ok false) (hlen : r.head.length ≤ resp.bufferLen) (hhd : (w.mem b).take r.head.length = r.head) (hname : name ≠ []) (hf : FirstValue name r v) :
    ∃ l k w', HTTPClient_ReadHeader httpParser (some resp) (some name) (some none) (some 0) w = (.ok (.success, some l, some k), w') ∧
      w'.mem = w.mem ∧ valueAt w.mem resp l k = v := by
  obtain ⟨pre, f, post, h1, h2, h3, rfl⟩ := hf
  obtain ⟨l, k, w', e, hm, d1, d2, d3⟩ := C65_lookup (w := w) hb hroom ok hlen hhd hname ⟨pre, post, h1, h2, h3⟩ none 0
  refine ⟨l, k, w', e, hm, ?_⟩
  unfold valueAt
  rw [hb]
  by_cases hv : f.value = []
  · rw [d2 hv, hv]
  · obtain ⟨a, ha, _, h4⟩ := d3 hv
    rw [ha]; exact h4

/-- What HTTPClient_Send receives fits in the response buffer. -/
theorem send_received_le {strict : Bool} {P : Parser} {body : Option Nat} {n : Nat} {flags : UInt32} {w w' : World PLog σ}
    (hp : CallPre strict P cfg T send recv rh rb body n resp b w.mem) {fuel : Nat} {x : Status × Option ReqHeaders × Option (Resp σ)} {evs : List (Ev PLog)}
    (e : HTTPClient_Send P cfg fuel (some T) (some rh) body n (some resp) flags w = (.ok x, w')) (hl : w'.log = w.log ++ evs) :
    (received evs).length ≤ resp.bufferLen := by
  rw [send_eq hp fuel] at e
  simp only [M.bind_apply] at e
  rcases sendRequest_spec (flags := flags) (withClock_ne resp) hp fuel with ⟨h1, h2⟩ | ⟨h1, q, s', m', rh', evs1, e1, hfr, hb, hbl, hle, hB, hlen, h2⟩
  · rw [h2] at e
    cases e
    have : evs = [] := by simpa using hl
    subst this
    exact Nat.zero_le _
  rw [e1] at e
  rcases h2 with ⟨rfl, hph⟩ | ⟨rfl | rfl, hph⟩
  · obtain ⟨_, _, _, s4⟩ := sending_kinds hph.kinds
    have hr := recvPre_of hp hfr hb hbl hle hB hlen
    obtain ⟨res, w2, evs2, e2, hl2, _, hle2⟩ := C29_receive_contiguous (w := ⟨s', m', w.log ++ evs1⟩) hr fuel
    simp only [if_true, M.bind_apply, e2] at e
    have hw : w2 = w' := by
      cases res with
      | ok a => cases e; rfl
      | fault f => cases e
      | more => cases e
    subst hw
    have : evs = evs1 ++ evs2 := by
      rw [hl2, List.append_assoc] at hl
      exact (List.append_cancel_left hl).symm
    rw [this, received_append, s4]
    simpa [withClock] using hle2
  · have hw : w'.log = w.log ++ evs1 := by cases e; rfl
    have : evs = evs1 := List.append_cancel_left (hl.symm.trans hw)
    rw [this, (sending_kinds hph.kinds).2.2.2]
    exact Nat.zero_le _
  · cases e

/-- **C113.** An application downloads a file piece by piece with range requests, from an unreliable server over an unreliable network, while the file on the server
changes: each answer may be about another version of it. The application looks up ETag and Content-Range of each successful answer with HTTPClient_ReadHeader,
begins anew when the tag is not the one of the version it has, and is finished when it has as many bytes as Content-Range says. Whatever fails, and whatever changes
when: no call faults, and what the application takes for the file is one version of the file, whole, byte for byte. (`.more`: a call did not return within
`fuel` steps.) -/
theorem C113_one_version {m : Mem} {path host : Bytes} {fl sendFl : UInt32} {version : Bytes → Bytes → Prop} {most : Nat}
    (hset : Setup true httpParser cfg T send recv h rb none 0 resp b m) (hS : FlakyServer serves got rest send recv resp)
    (hR : TrueVersions serves path version) (hflag : ¬ headersOnly resp.respOptionFlags) (hpa : path ≠ []) (hclp : CleanValue path)
    (hsize : h.bufferLen + 38 < 2 ^ cfg.sizeBits)
    (hsize' : h.bufferLen + (requestBlock (requestLine (ascii "GET") path) (documentedHeaders cfg.userAgent host fl.toNat)).length < 2 ^ cfg.sizeBits)
    (hmost : most ≤ 2147483648) (hfile : ∀ t f, version t f → f.length + most ≤ 2147483648)
    (attempts : List (Nat × σ)) (hatt : ∀ a ∈ attempts, 0 < a.1 ∧ a.1 ≤ most ∧ got a.2 = []) (l : List (Ev PLog)) (fuel : Nat) :
    track httpParser cfg fuel T path host fl sendFl true attempts [] [] h resp m l = .more ∨
    track httpParser cfg fuel T path host fl sendFl true attempts [] [] h resp m l = .ok none ∨
    ∃ t f, track httpParser cfg fuel T path host fl sendFl true attempts [] [] h resp m l = .ok (some (t, f)) ∧ version t f := by
  have key : ∀ (as : List (Nat × σ)) (tag acc : Bytes) (h' : ReqHeaders) (resp' : Resp σ) (m' : Mem) (l' : List (Ev PLog)),
      (∀ a ∈ as, 0 < a.1 ∧ a.1 ≤ most ∧ got a.2 = []) → (acc = [] ∨ ∃ f, version tag f ∧ acc <+: f) → h'.bufferLen = h.bufferLen →
      Setup true httpParser cfg T send recv h' rb none 0 resp' b m' → FlakyServer serves got rest send recv resp' → ¬ headersOnly resp'.respOptionFlags →
      track httpParser cfg fuel T path host fl sendFl true as tag acc h' resp' m' l' = .more ∨
      track httpParser cfg fuel T path host fl sendFl true as tag acc h' resp' m' l' = .ok none ∨
      ∃ t f, track httpParser cfg fuel T path host fl sendFl true as tag acc h' resp' m' l' = .ok (some (t, f)) ∧ version t f := by
    intro as
    induction as with
    | nil => intro tag acc h' resp' m' l' _ _ _ _ _ _; exact .inr (.inl rfl)
    | cons a as ih =>
      obtain ⟨k, s⟩ := a
      intro tag acc h' resp' m' l' hatt hacc hbl hset hS hflag
      obtain ⟨hk, hkm, hgs⟩ := hatt (k, s) (by simp)
      have hatt' : ∀ a ∈ as, 0 < a.1 ∧ a.1 ≤ most ∧ got a.2 = [] := fun a ha => hatt a (by simp [ha])
      dsimp only at hk hkm hgs
      unfold track
      have hal : acc.length + most ≤ 2147483648 := by
        rcases hacc with rfl | ⟨f, hv, hpre⟩
        · simpa using hmost
        · have h1 := hfile _ _ hv
          have h2 := hpre.length_le
          omega
      generalize hlast : acc.length + k - 1 = last
      have hb1 : acc.length ≤ last := by omega
      have hep : effectivePath (some path) = path := by
        unfold effectivePath
        cases path with
        | nil => exact absurd rfl hpa
        | cons x t => rfl
      obtain ⟨sts, rh, m1, e, hsl, _⟩ := runBuildOps_spec hset.agent
        [.init (some ⟨some (ascii "GET"), some path, some host, fl⟩), .addRange acc.length last] m' h' rb none hset.reqBuf hset.reqRoom (by
          intro op hop
          simp only [List.mem_cons, List.not_mem_nil, or_false] at hop
          rcases hop with rfl | rfl
          · refine ⟨?_, trivial⟩
            show h'.bufferLen + (requestBlock (requestLine (ascii "GET") (effectivePath (some path)))
              (documentedHeaders cfg.userAgent host fl.toNat)).length < _
            rw [hep, hbl]; exact hsize'
          · exact ⟨by rw [hbl]; exact hsize, ⟨by omega, by omega⟩, by omega, by omega⟩)
      rw [e]
      by_cases hsts : sts = [.success, .success]
      case neg =>
        refine .inr (.inl ?_)
        split
        · rename_i h; cases h; exact absurd rfl hsts
        · rfl
        · rename_i h; cases h
        · rename_i h; cases h
      subst hsts
      dsimp only
      obtain ⟨hp, hbl1, hlen1, hreq, hs, hread, hone⟩ := range_request (sendFl := sendFl) hset hpa hclp (by rw [hbl]; exact hsize) (by rw [hbl]; exact hsize')
        ⟨by omega, by omega⟩ e
      have hserves := fun x (hx : serves (wireRequest m1 rh none 0 sendFl) x) =>
        hR.2 _ x hs _ acc.length last hx hread hone (readRange_rangeText _) hb1
      obtain ⟨res, w', evs, e5, hl5, h5⟩ := C90_exchange (w := ⟨s, m1, l'⟩) (flags := sendFl) hp hreq hflag hS hgs
        (fun x hx => (hserves x hx).imp fun r h => ⟨h.1, h.2.1⟩) fuel
      rw [e5]
      rcases res with ⟨st, orh, oresp⟩ | f | _
      · obtain ⟨rh', resp2, rfl, rfl, hsu2, hb2', hbl2, _, _, _⟩ := send_leaves (w := ⟨s, m1, l'⟩) hp e5
        dsimp only
        have hlen : ∀ i, (w'.mem i).length = (m' i).length := by
          intro i
          obtain ⟨_, w2, e6, _, _, h3, _⟩ := C60_safe (w := ⟨s, m1, l'⟩) (flags := sendFl) hp fuel
          rw [e5] at e6
          cases e6
          rw [h3 i]; exact hlen1 i
        obtain ⟨u1, u2, u3, u4, u5⟩ := hsu2
        have hset2 : ∀ m2 : Mem, m2 = w'.mem → Setup true httpParser cfg T send recv rh' rb none 0 resp2 b m2 := by
          rintro _ rfl
          exact
          { hset with
            reqBuf := hb2'
            reqRoom := by rw [hbl2, hbl1, hlen]; exact hset.reqRoom
            reqSize := by rw [hbl2, hbl1]; exact hset.reqSize
            buf := u1.trans hset.buf
            pos := by rw [u2]; exact hset.pos
            room := by rw [u2, hlen]; exact hset.room
            size := by rw [u2]; exact hset.size
            callback := by rw [u3]; exact hset.callback
            bodyRoom := (fun bb h => nomatch h) }
        have hS2 : FlakyServer serves got rest send recv resp2 :=
          { hS with
            clock := fun f hf => hS.clock f (by
              rw [u4] at hf
              unfold withClock at hf
              dsimp only at hf
              cases hg : resp'.getTime <;> rw [hg] at hf <;> first | exact hf | cases hf)
            header := fun c hc => hS.header c (by rw [u3] at hc; exact hc) }
        have hnext := fun (tag' acc' : Bytes) (m2 : Mem) (l2 : List (Ev PLog)) (hm2 : m2 = w'.mem) ha =>
          ih tag' acc' rh' resp2 m2 l2 hatt' ha (by rw [hbl2, hbl1, hbl]) (hset2 m2 hm2) hS2 (by rw [u5]; exact hflag)
        by_cases hok : st = .success ∧ resp2.statusCode = 206
        case neg => rw [if_neg hok]; exact hnext tag acc _ _ rfl hacc
        rw [if_pos hok]
        obtain ⟨rfl, h206⟩ := hok
        rcases h5 _ _ resp2 rfl with ⟨_, h6, _⟩ | ⟨x, hx, _, h7⟩
        · exact absurd rfl h6
        obtain ⟨r, ok, hxr, hd⟩ := hserves x hx
        rcases h7 r ok hxr with ⟨_, hrec, g⟩ | ⟨h6, _⟩
        case inr => exact absurd rfl h6
        obtain ⟨t, f, cr, hv, hdata, hetag, hrange, htot⟩ := hd (by rw [← g.statusCode]; exact h206)
        have hbuf : resp2.pBuffer = some b := u1.trans hset.buf
        have hroom2 : resp2.bufferLen ≤ (w'.mem b).length := by rw [u2, hlen]; exact hset.room
        have hhl : r.head.length ≤ resp2.bufferLen := by
          have h1 : r.bytes.length = r.head.length + r.content.bytes.length := by simp [Response.bytes]
          have h2 : r.bytes.length ≤ resp'.bufferLen := by rw [← hrec]; exact send_received_le (w := ⟨s, m1, l'⟩) hp e5 hl5
          have u2' : resp2.bufferLen = resp'.bufferLen := u2
          omega
        obtain ⟨loc, len, w2, e6, hm2, hv1⟩ := lookup_value (w := w') hbuf hroom2 ok hhl (g.head b hbuf) (show ascii "ETag" ≠ [] by decide) hetag
        obtain ⟨loc2, len2, w3, e7, hm3, hv2⟩ := lookup_value (w := w2) hbuf (by rw [hm2]; exact hroom2) ok hhl (by rw [hm2]; exact g.head b hbuf)
          (show ascii "Content-Range" ≠ [] by decide) hrange
        rw [e6]
        dsimp only
        rw [e7]
        dsimp only
        rw [hm3, hm2] at *
        rw [hv1, hv2, g.body]
        have hkeep : (keep true tag acc t r.content.data).2 = [] ∨ ((keep true tag acc t r.content.data).1 = t ∧ (keep true tag acc t r.content.data).2 <+: f) := by
          unfold keep
          by_cases ha : acc = []
          · rw [if_pos ha]
            subst ha
            exact .inr ⟨rfl, hdata.trans (by simpa using List.take_prefix _ _)⟩
          · rw [if_neg ha]
            by_cases ht : t = tag
            · subst ht
              rw [if_neg (by simp)]
              refine .inr ⟨rfl, ?_⟩
              rcases hacc with h | ⟨f', hv', u, rfl⟩
              · exact absurd h ha
              · obtain rfl := hR.1 _ _ _ hv hv'
                dsimp only at hdata ⊢
                rw [List.drop_left] at hdata
                exact List.prefix_append_right_inj _ |>.mpr (hdata.trans (List.take_prefix _ _))
            · rw [if_pos (by simpa using ht)]
              exact .inl rfl
        by_cases hend : (keep true tag acc t r.content.data).2 ≠ [] ∧ completeLength cr = some (keep true tag acc t r.content.data).2.length
        · rw [if_pos hend]
          rcases hkeep with h | ⟨h1, h2⟩
          · exact absurd h hend.1
          · have h3 := h2.eq_of_length (by
              have := hend.2
              rw [htot] at this
              exact (Option.some.inj this).symm)
            have h5 : keep true tag acc t r.content.data = (t, f) := Prod.ext h1 h3
            exact .inr (.inr ⟨t, f, congrArg (fun z => Run.ok (some z)) h5, hv⟩)
        · rw [if_neg hend]
          refine hnext _ _ _ _ rfl ?_
          rcases hkeep with h | ⟨h1, h2⟩
          · exact .inl h
          · exact .inr ⟨f, by rw [h1]; exact hv, h2⟩
      · obtain ⟨_, w2, e6, hnf, _⟩ := C60_safe (w := ⟨s, m1, l'⟩) (flags := sendFl) hp fuel
        rw [e5] at e6
        cases e6
        exact absurd rfl (hnf f)
      · exact .inl rfl
  exact key attempts [] [] h resp m l hatt (.inl rfl) rfl hset hS hflag

/-! ### Non-vacuity: an unreliable environment, for any files -/

/-- The entity tag of the version `v`. -/
def tagOf (v : Nat) : Bytes := [34] ++ decimal v ++ [34]

/-- The answer with these bytes of the version `v`. -/
def verAnswer (d : Bytes) (a total v : Nat) : Response :=
  { sizedAnswer d a total with fields := ⟨ascii "etag", ascii " ", tagOf v⟩ :: (sizedAnswer d a total).fields }

/-- A server for the version `v`. -/
def serveVersion (file : Nat → Bytes) (v : Nat) (q : Bytes) : Bytes :=
  match readRequest q with
  | some (_, hs, []) =>
    match hs.filter (·.1 == ascii "Range") with
    | [(_, t)] =>
      match readRange t with
      | some (.fromTo a b) => (verAnswer (((file v).drop a).take (b + 1 - a)) a (file v).length v).bytes
      | _ => []
    | _ => []
  | _ => []

theorem verAnswer_ok (d : Bytes) (a total v : Nat) (hd : d.length < 18446744073709551615) : (verAnswer d a total v).Ok false where
  code := (sizedAnswer_ok d a total hd).code
  reason := (sizedAnswer_ok d a total hd).reason
  fields := by
    intro f hf
    rcases List.mem_cons.mp hf with rfl | hf
    · refine ⟨⟨show ascii "etag" ≠ [] by decide, show ∀ c ∈ ascii "etag", isTokenChar c = true by decide +kernel⟩,
        show ∀ c ∈ ascii " ", c = 32 ∨ c = 9 by decide, ?_, show (tagOf v).head? ≠ some 32 by simp [tagOf], show (tagOf v).head? ≠ some 9 by simp [tagOf]⟩
      intro c hc
      simp only [tagOf, List.mem_append, List.mem_singleton] at hc
      rcases hc with (rfl | hc) | rfl
      · decide
      · exact ⟨digit_of hc (by decide), digit_of hc (by decide), digit_of hc (by decide)⟩
      · decide
    · exact (sizedAnswer_ok d a total hd).fields f hf
  content := by
    obtain ⟨h1, ⟨f, h2, h3⟩, h4, h5⟩ := (sizedAnswer_ok d a total hd).content
    refine ⟨rfl, ⟨f, ?_, h3⟩, h4, ?_⟩
    · have h6 : (verAnswer d a total v).lengths = (sizedAnswer d a total).lengths := by
        show List.filter _ (_ :: _) = _
        rw [List.filter_cons_of_neg (by rw [decide_eq_true_eq]; show ¬ ((ascii "etag").map lowerAscii = ascii "content-length"); decide +kernel)]
        rfl
      rw [h6]; exact h2
    · intro g hg
      rcases List.mem_cons.mp hg with rfl | hg
      · show ¬ (ascii "etag").map lowerAscii = ascii "transfer-encoding"; decide +kernel
      · exact h5 g hg

theorem tagOf_inj {v u : Nat} (h : tagOf v = tagOf u) : v = u := by
  unfold tagOf at h
  simp only [List.cons_append, List.nil_append, List.cons.injEq, true_and] at h
  have h1 := List.append_cancel_right h
  have h2 := readDecimal_decimal v
  rw [h1, readDecimal_decimal u] at h2
  exact (Option.some.inj h2).symm

/-- What it says is true. -/
theorem serveVersion_true (path : Bytes) (file : Nat → Bytes) (hf : ∀ v, (file v).length ≤ 2147483648) :
    TrueVersions (fun q x => ∃ v, x = serveVersion file v q) path (fun t f => ∃ v, t = tagOf v ∧ f = file v) := by
  refine ⟨?_, ?_⟩
  · rintro t f g ⟨v, rfl, rfl⟩ ⟨u, h, rfl⟩
    rw [tagOf_inj h]
  · rintro q x hs v first last ⟨u, rfl⟩ hq hh hv h1
    refine ⟨verAnswer (((file u).drop first).take (last + 1 - first)) first (file u).length u,
      verAnswer_ok _ _ _ _ (by have := hf u; rw [List.length_take, List.length_drop]; omega), ?_, fun _ => ?_⟩
    · unfold serveVersion
      rw [hq]; dsimp only
      rw [hh]; dsimp only
      rw [hv]
    · refine ⟨tagOf u, file u, _, ⟨u, rfl, rfl⟩, List.prefix_refl _, ⟨[], _, _, rfl, ?_, (fun g hg => nomatch hg), rfl⟩, ?_,
        (sized_value first (first + (((file u).drop first).take (last + 1 - first)).length - 1) (file u).length _ rfl).1⟩
      · exact (C56_compare (s := ascii "ETag") (t := ascii "etag") (n := 4) (by decide) (by decide)).2.1 (by decide +kernel)
      · refine ⟨⟨ascii "etag", ascii " ", tagOf u⟩ :: (partAnswer (((file u).drop first).take (last + 1 - first))).fields, _, _, rfl, ?_, ?_, rfl⟩
        · exact (C56_compare (s := ascii "Content-Range") (t := ascii "CONTENT-range") (n := 13) (by decide) (by decide)).2.1 (by decide +kernel)
        · intro g hg hs'
          have hl := hs'.1
          simp only [partAnswer, List.mem_cons, List.not_mem_nil, or_false] at hg
          rcases hg with rfl | rfl | rfl <;> (dsimp only at hl; revert hl; decide)

/-- Environment: milliseconds; what the server got; what is to be delivered; how many send and how many receive calls will not fail; the version of the file. -/
abbrev VerEnv := Nat × Bytes × Bytes × Nat × Nat × Nat

/-- Accepts at most 7 bytes; fails when the number of send calls is used up. -/
def verSend (file : Nat → Bytes) : VerEnv → Bytes → Int × VerEnv := fun (t, g, _, ns, nr, v) d =>
  if ns = 0 then (-1, t + 1, g, serveVersion file v g, 0, nr, v)
  else (((min 7 d.length : Nat) : Int), t + 1, g ++ d.take 7, serveVersion file v (g ++ d.take 7), ns - 1, nr, v)
/-- Delivers at most 5 bytes; fails when the number of receive calls is used up, having written a byte into the buffer. -/
def verRecv : VerEnv → Nat → Int × Bytes × VerEnv := fun (t, g, r, ns, nr, v) len =>
  if nr = 0 then (-2, [65].take len, t, g, r, ns, nr, v)
  else (((min (min 5 len) r.length : Nat) : Int), r.take (min 5 len), t + 1, g, r.drop (min 5 len), ns, nr - 1, v)
/-- A response object. -/
def verResp (q n : Nat) : Resp VerEnv :=
  ⟨some q, n, some (.user fun s _ _ _ _ _ => s), .user fun s => (UInt32.ofNat s.1, s), some 3, 4, some 5, 6, 999, 77, 8, 1, 0, 3⟩

theorem verServer (file : Nat → Bytes) (q n : Nat) :
    FlakyServer (fun q x => ∃ v, x = serveVersion file v q) (fun s => s.2.1) (fun s => s.2.2.1) (verSend file) verRecv (verResp q n) where
  takes := by
    rintro ⟨t, g, r, ns, nr, v⟩ d
    unfold verSend
    dsimp only
    split
    · simp
    · dsimp only
      congr 1
      rcases Nat.le_total 7 d.length with h | h
      · rw [Nat.min_eq_left h]; rfl
      · rw [Nat.min_eq_right h, List.take_of_length_le h, List.take_of_length_le (by omega)]
  answers := by
    rintro ⟨t, g, r, ns, nr, v⟩ d
    unfold verSend
    dsimp only
    split <;> exact ⟨v, rfl⟩
  delivers := by
    rintro ⟨t, g, r, ns, nr, v⟩ len
    unfold verRecv
    dsimp only
    split
    · exact ⟨Nat.zero_le _, rfl⟩
    · dsimp only
      refine ⟨by rw [List.length_take]; omega, ?_⟩
      rw [show ((min (min 5 len) r.length : Nat) : Int).toNat = (r.take (min 5 len)).length by rw [List.length_take]; omega,
        List.take_length, List.take_append_drop]
  clock := by intro f hf s; cases hf; exact ⟨rfl, rfl⟩
  header := by intro c hc s a f b v code; cases hc; exact ⟨rfl, rfl⟩

/-- Any versions of the file, any number of attempts, the server at any version in each, any number of calls that do not fail in each: one version, whole. -/
theorem C113_any_files (file : Nat → Bytes) (hfile : ∀ v, (file v).length ≤ 1073741824) (attempts : List (Nat × VerEnv))
    (hatt : ∀ a ∈ attempts, 0 < a.1 ∧ a.1 ≤ 1073741824 ∧ a.2.2.1 = []) (q n : Nat) (hq : q = 0 ∨ q = 1) (hn : 0 < n ∧ n ≤ 200) (fuel : Nat)
    (x : Option (Bytes × Bytes))
    (e : track httpParser exCfg fuel ⟨some (verSend file), some verRecv⟩ (ascii "/firmware.bin") (ascii "example.com") 1 0 true attempts [] []
      eHdr (verResp q n) xMem [] = .ok x) : x = none ∨ ∃ v, x = some (tagOf v, file v) := by
  have hx := peerCallPre [] [] q hq
  have hset : Setup true httpParser exCfg ⟨some (verSend file), some verRecv⟩ (verSend file) verRecv eHdr 0 none 0 (verResp q n) q xMem :=
    { parser := hx.parser, hasSend := rfl, hasRecv := rfl
      sendOk := (fun (t, g, r, ns, nr, v) d => by unfold verSend; dsimp only; split <;> dsimp only <;> omega)
      recvOk := (fun (t, g, r, ns, nr, v) len => by
        unfold verRecv
        dsimp only
        split
        · exact ⟨by dsimp only; omega, by dsimp only; rw [List.length_take]; omega⟩
        · exact ⟨by dsimp only; omega, by dsimp only; rw [List.length_take]; omega⟩)
      agent := by decide, reqBuf := rfl, reqRoom := by decide +kernel, reqSize := by decide
      buf := rfl, pos := hn.1, room := (Nat.le_trans hn.2 hx.room), size := (Nat.lt_of_le_of_lt hn.2 (by decide))
      callback := (fun h => nomatch h), bodyNone := fun _ => rfl
      bodyRoom := (fun bb h => nomatch h), bodyMax := by decide }
  have h := C113_one_version hset (verServer file q n) (serveVersion_true (ascii "/firmware.bin") file (fun v => Nat.le_trans (hfile v) (by decide)))
    (show ¬ ((0 : UInt32).toNat % 2 = 1) by decide) (by decide) (by decide) (host := ascii "example.com") (fl := 1) (sendFl := 0) (by decide) (by decide +kernel)
    (most := 1073741824) (by decide) (by rintro t f ⟨v, _, rfl⟩; have := hfile v; omega) attempts hatt [] fuel
  rw [e] at h
  rcases h with h | h | ⟨t, f, h, v, rfl, rfl⟩
  · cases h
  · cases h; exact .inl rfl
  · cases h; exact .inr ⟨v, rfl⟩

/-- Two versions of a file. -/
def twoVersions (v : Nat) : Bytes := if v = 0 then ascii "0123456789abcdefghij" else ascii "ABCDEFGHIJKLMNOPQRSTUVWXY"

/-- The loop with these. -/
def exTrack (check : Bool) (attempts : List (Nat × VerEnv)) : Run (Option (Bytes × Bytes)) :=
  track httpParser exCfg 300 ⟨some (verSend twoVersions), some verRecv⟩ (ascii "/firmware.bin") (ascii "example.com") 1 0 check
    attempts [] [] eHdr (verResp 1 200) xMem []

/-- Nine bytes of the first version; sending fails; five more bytes; the file changes; nine bytes of the second version, receiving fails, the rest of it. -/
def exAttempts : List (Nat × VerEnv) :=
  [(9, (0, [], [], 100, 100, 0)), (5, (0, [], [], 3, 100, 0)), (5, (0, [], [], 100, 100, 0)), (9, (0, [], [], 100, 100, 1)), (9, (0, [], [], 100, 100, 1)),
    (9, (0, [], [], 100, 20, 1)), (19, (0, [], [], 100, 100, 1))]

example : exTrack true exAttempts = .ok (some (tagOf 1, twoVersions 1)) := by decide +kernel

/-- **C113, why the tag has to be checked.** The same loop without looking at the tag takes a mixture of two versions for the file. -/
theorem C113_unchecked : exTrack false exAttempts = .ok (some (tagOf 0, ascii "0123456789abcdOPQRSTUVWXY")) ∧
    ∀ v, ascii "0123456789abcdOPQRSTUVWXY" ≠ twoVersions v := by
  refine ⟨by decide +kernel, fun v => ?_⟩
  unfold twoVersions
  split <;> decide +kernel

end CoreHttp.Props

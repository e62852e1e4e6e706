import Verif.Lemmas.ReadHeaderView

/-! # HTTPClient_ReadHeader as a whole -/

namespace CoreHttp
open Spec
variable {σ : Type}

theorem readAll_eq (P : Parser) (data : Bytes) :
    readAll P data = ((((P.exec P.init data).run (answers .noBody)).1.map (·.observe 0 data)), ((P.exec P.init data).run (answers .noBody)).2.1) := by
  simp [readAll, feedAll, feedStep]

open Classical in
theorem readHeader_run {strict : Bool} {P : Parser} {resp : Resp σ} {b : Nat} {name : Bytes} {w : World PLog σ}
    (hp : ReadPre strict P resp b name w.mem) (l : Option Nat) (n : Nat) :
    ∃ st l' n' log', HTTPClient_ReadHeader P (some resp) (some name) (some l) (some n) w = (.ok (st, some l', some n'), { w with log := w.log ++ log' }) ∧
      (match scan name false (readAll P ((w.mem b).take resp.bufferLen)).1 with
       | (_, some o) => st = .success ∧ l' = (if o.data = [] then none else some o.loc) ∧ n' = o.data.length ∧
          o.loc + o.data.length ≤ resp.bufferLen ∧ slice ((w.mem b).take resp.bufferLen) o.loc o.data.length = o.data
       | (ff, none) => st = (if ff = false ∧ (readAll P ((w.mem b).take resp.bufferLen)).2 = .ok then .headerNotFound else .invalidResponse) ∧ l' = l ∧ n' = n) := by
  obtain ⟨Inv, hi, hT⟩ := hp.parser
  have hlen : ((w.mem b).take resp.bufferLen).length = resp.bufferLen := by rw [List.length_take]; have := hp.room; omega
  obtain ⟨er, ep, s, h', log', e1, h1⟩ := findTree (σ := σ) hp.name b ((w.mem b).take resp.bufferLen) (P.exec P.init ((w.mem b).take resp.bufferLen)) .idle 0
    ⟨false, false, l, n⟩ ⟨w.env, w.mem, w.log ++ [.parserCall 0 ((w.mem b).take resp.bufferLen)]⟩ (hT _ _ 0 0 _ hi (Nat.le_refl _)) trivial (by simp) (by rw [hlen]) rfl
    (by simp)
  have hrd : memRead (w.mem b) 0 resp.bufferLen = .ok ((w.mem b).take resp.bufferLen) := by
    rw [memRead_ok (by have := hp.room; omega)]; rfl
  have hb : resp.pBuffer = some b := hp.buf
  rw [readAll_eq]
  dsimp only
  generalize hsc : scan name false (((P.exec P.init ((w.mem b).take resp.bufferLen)).run (answers .noBody)).1.map (·.observe 0 ((w.mem b).take resp.bufferLen))) = sc at h1 ⊢
  have hpos : resp.bufferLen ≠ 0 := by have := hp.pos; omega
  have hname : name.length ≠ 0 := by have := hp.name; omega
  unfold HTTPClient_ReadHeader
  simp only [hb, hpos, hname, if_false]
  unfold findHeaderInResponse
  simp only [M.bind_apply, M.world_apply, M.ofRun_apply, hrd, M.emit_apply]
  rw [e1]
  obtain ⟨ff, so⟩ := sc
  cases so with
  | some o =>
    obtain ⟨rfl, rfl, h2, h3⟩ := h1
    refine ⟨.success, _, _, [.parserCall 0 ((w.mem b).take resp.bufferLen)] ++ log', ?_, rfl, rfl, rfl, by rw [← hlen]; exact h2, h3⟩
    simp
  | none =>
    obtain ⟨rfl, rfl⟩ := h1
    cases ff with
    | true =>
      refine ⟨.invalidResponse, l, n, [.parserCall 0 ((w.mem b).take resp.bufferLen)] ++ log', ?_, by simp, rfl, rfl⟩
      simp
    | false =>
      by_cases her : ((P.exec P.init ((w.mem b).take resp.bufferLen)).run (answers .noBody)).2.1 = .ok
      · refine ⟨.headerNotFound, l, n, [.parserCall 0 ((w.mem b).take resp.bufferLen)] ++ log', ?_, by simp [her], rfl, rfl⟩
        simp [her]
      · refine ⟨.invalidResponse, l, n, [.parserCall 0 ((w.mem b).take resp.bufferLen)] ++ log', ?_, by simp [her], rfl, rfl⟩
        simp [her]

theorem lookInit : LookInv .idle 0 View.empty := ⟨trivial, by simp, by simp [LookPend, View.empty]⟩

theorem observe_evs (es : List PEv) (base : Nat) (data : Bytes) : (es.map (·.observe base data)).map PObs.ev = es := by
  rw [List.map_map]
  conv => rhs; rw [← List.map_id es]
  apply List.map_congr_left
  intro e _
  rfl

/-- The events of one call of a strict parser, as a chain. -/
theorem readAll_chain {P : Parser} (hP : ParserOk true P) (data : Bytes) :
    Chain true 0 data.length .idle 0 ((readAll P data).1.map PObs.ev) := by
  obtain ⟨Inv, hi, hT⟩ := hP
  rw [readAll_eq, observe_evs]
  exact chain_of_tree _ _ _ (hT _ _ 0 0 _ hi (Nat.le_refl _))

theorem first_unique {name : Bytes} {hs : List (Bytes × Bytes × Nat)} {v v' : Bytes} (h : FirstNamed name hs v) (h' : FirstNamed name hs v') : v = v' := by
  obtain ⟨pre, f, c, post, rfl, h1, h2⟩ := h
  obtain ⟨pre', f', c', post', h3, h4, h5⟩ := h'
  rcases List.append_eq_append_iff.mp h3 with ⟨as, h6, h7⟩ | ⟨as, h6, h7⟩
  · cases as with
    | nil => simp at h7; exact h7.1.2.1
    | cons a as =>
      rw [List.cons_append, List.cons.injEq] at h7
      exact absurd h1 (h5 (f, v, c) (by rw [h6, h7.1]; simp))
  · cases as with
    | nil => simp at h7; exact h7.1.2.1.symm
    | cons a as =>
      rw [List.cons_append, List.cons.injEq] at h7
      exact absurd h4 (h2 (f', v', c') (by rw [h6, h7.1]; simp))

theorem first_mono {name : Bytes} {hs hs' : List (Bytes × Bytes × Nat)} {v : Bytes} (h : FirstNamed name hs v) (hp : hs <+: hs') : FirstNamed name hs' v := by
  obtain ⟨pre, f, c, post, rfl, h1, h2⟩ := h
  obtain ⟨t, rfl⟩ := hp
  exact ⟨pre, f, c, post ++ t, by simp, h1, h2⟩

theorem first_none {name : Bytes} {hs : List (Bytes × Bytes × Nat)} (h : ∀ x ∈ hs, ¬ sameName name x.1) (v : Bytes) : ¬ FirstNamed name hs v := by
  rintro ⟨pre, f, c, post, rfl, h1, _⟩
  exact h (f, v, c) (by simp) h1

theorem first_exists {name : Bytes} {hs : List (Bytes × Bytes × Nat)} (h : ∃ x ∈ hs, sameName name x.1) : ∃ v, FirstNamed name hs v := by
  induction hs with
  | nil => obtain ⟨x, hx, _⟩ := h; cases hx
  | cons a hs ih =>
    by_cases ha : sameName name a.1
    · exact ⟨a.2.1, [], a.1, a.2.2, hs, rfl, ha, by simp⟩
    · obtain ⟨x, hx, hs'⟩ := h
      rcases List.mem_cons.mp hx with rfl | hx
      · exact absurd hs' ha
      · obtain ⟨v, pre, f, c, post, h1, h2, h3⟩ := ih ⟨x, hx, hs'⟩
        refine ⟨v, a :: pre, f, c, post, by rw [h1]; rfl, h2, ?_⟩
        intro y hy
        rcases List.mem_cons.mp hy with rfl | hy
        · exact ha
        · exact h3 y hy

theorem headerSection_prefix (os : List PObs) :
    (os = headerSection os ∧ sectionEnd os = none) ∨
    ∃ o rest a cl cc ka, os = headerSection os ++ o :: rest ∧ o.ev = .headersComplete a cl cc ka ∧ sectionEnd os = some o.loc := by
  induction os with
  | nil => exact .inl ⟨rfl, rfl⟩
  | cons o os ih =>
    unfold headerSection sectionEnd
    split
    · rename_i h
      exact .inr ⟨o, os, _, _, _, _, rfl, h, rfl⟩
    · rcases ih with ⟨ih, ih2⟩ | ⟨o', rest, a, cl, cc, ka, h1, h2, h3⟩
      · left; exact ⟨by rw [← ih], ih2⟩
      · right; exact ⟨o', rest, a, cl, cc, ka, by rw [List.cons_append, ← h1], h2, h3⟩

/-- The headers of the header section come first among all the headers. -/
theorem section_prefix {P : Parser} (hP : ParserOk true P) (data : Bytes) :
    allHeaders (headerSection (readAll P data).1) <+: allHeaders (readAll P data).1 := by
  have hc := readAll_chain hP data
  generalize (readAll P data).1 = os at hc ⊢
  rcases headerSection_prefix os with ⟨h, _⟩ | ⟨o, rest, _, _, _, _, h, _⟩
  · rw [← h]; exact List.prefix_refl _
  · have hc2 := hc
    rw [h, List.map_append, chain_append] at hc2
    obtain ⟨q1, q2⟩ := lookChain _ _ _ _ _ rfl lookInit hc2.1
    have := (lookChain _ _ _ _ _ rfl q1 hc2.2).2
    unfold allHeaders view
    rw [h, List.foldl_append]
    rw [← h]
    exact this

/-- Once the header section has ended at the end of the data, nothing more is found. -/
theorem lookRest {dlen : Nat} (es : List PEv) : ∀ (os : List PObs) (ph : Phase) (lo : Nat) (v : View), os.map PObs.ev = es → LookInv ph lo v →
    ph ≠ .field → ph ≠ .value → 0 < dlen → dlen ≤ lo → Chain true 0 dlen ph lo es →
    (os.foldl View.step v).flush.headers = v.flush.headers ∧ (os.foldl View.step v).pending = none := by
  induction es with
  | nil =>
    intro os ph lo v ho h h1 h2 _ _ _
    obtain rfl := List.map_eq_nil_iff.mp ho
    exact ⟨rfl, h.pend.2.2 h1 h2⟩
  | cons e es ih =>
    intro os ph lo v ho h h1 h2 hd hlo hc
    cases os with
    | nil => cases ho
    | cons o os =>
      rw [List.map_cons, List.cons.injEq] at ho
      have hev := ho.1
      obtain ⟨q1, _⟩ := lookStep h hc.1 ho.1
      have hn := h.pend.2.2 h1 h2
      cases e with
      | messageBegin =>
        obtain ⟨q2, q3⟩ := ih os _ _ _ ho.2 q1 (by simp [Phase.next]) (by simp [Phase.next]) hd hlo hc.2
        refine ⟨?_, q3⟩
        rw [List.foldl_cons, q2]
        simp [View.step, hev, View.flush, hn]
      | statusComplete code =>
        obtain ⟨q2, q3⟩ := ih os _ _ _ ho.2 q1 (by simp [Phase.next]) (by simp [Phase.next]) hd hlo hc.2
        refine ⟨?_, q3⟩
        rw [List.foldl_cons, q2]
        simp [View.step, hev, View.flush, hn]
      | messageComplete =>
        obtain ⟨q2, q3⟩ := ih os _ _ _ ho.2 q1 (by simp [Phase.next]) (by simp [Phase.next]) hd hlo hc.2
        refine ⟨?_, q3⟩
        rw [List.foldl_cons, q2]
        simp [View.step, hev, View.flush, hn]
      | status off len code => obtain ⟨_, h3, h4, h5⟩ := hc.1; omega
      | headersComplete at_ cl cc ka => obtain ⟨_, h3, h4, h5⟩ := hc.1; omega
      | body off len => obtain ⟨_, h3, h4, h5⟩ := hc.1; omega
      | headerField off len => obtain ⟨⟨h3, h4, h5⟩, _⟩ := hc.1; omega
      | headerValue off len => obtain ⟨⟨h3, h4, h5⟩, _⟩ := hc.1; omega

/-- A buffer that ends with the header section has no other headers. -/
theorem section_all {P : Parser} (hP : ParserOk true P) {data : Bytes} (hlen : 0 < data.length)
    (he : sectionEnd (readAll P data).1 = some data.length) :
    allHeaders (readAll P data).1 = allHeaders (headerSection (readAll P data).1) ∧ (view (readAll P data).1).pending = none := by
  have hc := readAll_chain hP data
  have hobs : ∀ o ∈ (readAll P data).1, o = o.ev.observe 0 data := by
    rw [readAll_eq]
    intro o ho
    obtain ⟨e, _, rfl⟩ := List.mem_map.mp ho
    rfl
  generalize (readAll P data).1 = os at hc he hobs ⊢
  rcases headerSection_prefix os with ⟨h, hn⟩ | ⟨o, rest, a, cl, cc, ka, h, hev, hend⟩
  · rw [he] at hn; cases hn
  · rw [he] at hend
    have ho := hobs o (by rw [h]; simp)
    rw [hev] at ho
    have ha : a = data.length := by
      have : o.loc = 0 + a := by rw [ho]; rfl
      simp only [Option.some.injEq] at hend
      omega
    have hc2 := hc
    rw [h, List.map_append, List.map_cons, chain_append] at hc2
    obtain ⟨q1, q2⟩ := lookChain _ _ _ _ _ rfl lookInit hc2.1
    obtain ⟨hc3, hc4⟩ := hc2.2
    obtain ⟨q3, _⟩ := lookStep q1 hc3 rfl
    have heq : ((headerSection os).foldl View.step View.empty).flush.headers = (((headerSection os).foldl View.step View.empty).step o).flush.headers := by
      have hf : ((headerSection os).foldl View.step View.empty).flush.pending = none := by
        rw [hev] at hc3
        rcases hc3.1 with hp | hp
        · simp [View.flush, q1.pend.2.2 (by simp [hp]) (by simp [hp])]
        · obtain ⟨f, x, hx⟩ := q1.pend.2.1 hp
          simp [View.flush, hx]
      generalize (headerSection os).foldl View.step View.empty = v at hf ⊢
      have : (v.step o).pending = none := by simp [View.step, hev, hf]
      have h7 : (v.step o).flush = v.step o := by unfold View.flush; rw [this]
      rw [h7]
      simp [View.step, hev]
    rw [hev] at q3 hc4
    obtain ⟨q4, q5⟩ := lookRest _ rest _ _ _ rfl q3 (by simp [Phase.next, answers]) (by simp [Phase.next, answers]) hlen (by simp only [endPos]; omega) hc4
    unfold allHeaders view
    constructor
    · conv => lhs; rw [h]
      rw [List.foldl_append, List.foldl_cons, q4, heq]
    · rw [h, List.foldl_append, List.foldl_cons, q5]

end CoreHttp

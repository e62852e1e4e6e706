import Verif.Spec.Aliasing
import Verif.Lemmas.RequestApi

/-! The pointer model of request building is the by-value model run on the strings that the code saw. -/

namespace CoreHttp
open Spec

theorem Src.bytes_length {m : Mem} {s : Src} (h : s.Readable m) : (s.bytes m).length = s.len := by
  cases s with
  | lit s => rfl
  | «at» blk off len => simp only [Src.bytes, Src.len, Src.Readable, List.length_take, List.length_drop] at *; omega

theorem Src.read_eq {m : Mem} {s : Src} (h : s.Readable m) {i : Nat} (hi : i < s.len) :
    ∃ c, s.read m i = .ok c ∧ (s.bytes m)[i]? = some c := by
  cases s with
  | lit s =>
    simp only [Src.len] at hi
    exact ⟨s[i], by simp [Src.read, hi], by simp [Src.bytes, hi]⟩
  | «at» blk off len =>
    simp only [Src.len, Src.Readable] at hi h
    have : off + i < (m blk).length := by omega
    refine ⟨(m blk)[off + i], by simp [Src.read, this], ?_⟩
    simp only [Src.bytes, List.getElem?_take, hi, if_true, List.getElem?_drop]
    simp [this]

theorem memWrite_inv {blk : Bytes} {off : Nat} {bs r : Bytes} (h : memWrite blk off bs = .ok r) :
    r = splice blk off bs ∧ off + bs.length ≤ blk.length := by
  unfold memWrite at h
  split at h
  · cases h; exact ⟨rfl, by assumption⟩
  · cases h

theorem Src.Readable.set {m : Mem} {s : Src} {b : Nat} {x : Bytes} (h : s.Readable m) (hx : x.length = (m b).length) :
    s.Readable (m.set b x) := by
  cases s with
  | lit s => trivial
  | «at» blk off len =>
    simp only [Src.Readable] at *
    by_cases hb : blk = b
    · subst hb; simpa [hx] using h
    · rwa [Mem.set_other _ _ hb]

theorem splice_get {blk bs : Bytes} {w k : Nat} (hw : w + bs.length ≤ blk.length) (h : k < w ∨ w + bs.length ≤ k) :
    (splice blk w bs)[k]? = blk[k]? := by
  unfold splice
  simp only [List.getElem?_append, List.length_append, List.length_take]
  rcases h with h | h
  · rw [if_pos (by omega), if_pos (by omega), List.getElem?_take, if_pos h]
  · rw [if_neg (by omega), List.getElem?_drop]; congr 1; omega

theorem Src.bytes_set {m : Mem} {s : Src} {b w : Nat} {bs : Bytes} (hw : w + bs.length ≤ (m b).length) {j : Nat}
    (h : match s with | .lit _ => True | .at blk off _ => blk ≠ b ∨ off + j < w ∨ w + bs.length ≤ off + j) :
    (s.bytes (m.set b (splice (m b) w bs)))[j]? = (s.bytes m)[j]? := by
  cases s with
  | lit s => rfl
  | «at» blk off len =>
    simp only at h
    simp only [Src.bytes, List.getElem?_take, List.getElem?_drop]
    split
    · by_cases hb : blk = b
      · subst hb
        rw [Mem.set_same, splice_get hw (by rcases h with h | h | h; exact absurd rfl h; exact .inl h; exact .inr h)]
      · rw [Mem.set_other _ _ hb]
    · rfl

theorem Src.drop_set {m : Mem} {s : Src} {b w i : Nat} {bs : Bytes} (hw : w + bs.length ≤ (m b).length)
    (h : ∀ blk off len, s = .at blk off len → blk ≠ b ∨ off + len ≤ w ∨ w + bs.length ≤ off + i) :
    (s.bytes (m.set b (splice (m b) w bs))).drop i = (s.bytes m).drop i := by
  apply List.ext_getElem?
  intro j
  simp only [List.getElem?_drop]
  cases s with
  | lit s => rfl
  | «at» blk off len =>
    by_cases hj : i + j < len
    · apply Src.bytes_set hw
      have := h blk off len rfl
      simp only
      omega
    · simp only [Src.bytes, List.getElem?_take, if_neg hj]

theorem strncpyP_eq (b off : Nat) (s : Src) (isF : Bool) : ∀ (rem i : Nat) (m : Mem), s.Readable m → i + rem = s.len →
    ∃ f : Bytes, f.length = rem ∧
      httpHeaderStrncpyP b off s isF rem i m = (httpHeaderStrncpy (m b) (off + i) f isF >>= fun r => .ok (r.1, m.set b r.2)) ∧
      (s.Clear b off off → f = (s.bytes m).drop i)
  | 0, i, m, hr, hi => by
    refine ⟨[], rfl, ?_, fun _ => ?_⟩
    · simp [httpHeaderStrncpyP, httpHeaderStrncpy, Mem.set_self]
    · rw [List.drop_eq_nil_of_le]; rw [Src.bytes_length hr]; omega
  | rem + 1, i, m, hr, hi => by
    obtain ⟨c, hc, hg⟩ := Src.read_eq hr (i := i) (by omega)
    have hlen := Src.bytes_length hr
    have hil : i < (s.bytes m).length := by omega
    have hcons : (s.bytes m).drop i = c :: (s.bytes m).drop (i + 1) := by
      rw [List.drop_eq_getElem_cons hil]
      rw [List.getElem?_eq_getElem hil] at hg
      rw [Option.some.inj hg]
    have hl1 : (c :: (s.bytes m).drop (i + 1)).length = rem + 1 := by simp; omega
    rw [httpHeaderStrncpyP, hc]
    simp only [Run.ok_bind]
    by_cases h1 : c = CR
    · exact ⟨_, hl1, by rw [if_pos h1, httpHeaderStrncpy, if_pos h1]; simp [Mem.set_self], fun _ => hcons.symm⟩
    rw [if_neg h1]
    by_cases h2 : c = LF
    · exact ⟨_, hl1, by rw [if_pos h2, httpHeaderStrncpy, if_neg h1, if_pos h2]; simp [Mem.set_self], fun _ => hcons.symm⟩
    rw [if_neg h2]
    by_cases h3 : isF = true ∧ c = COLON
    · exact ⟨_, hl1, by rw [if_pos h3, httpHeaderStrncpy, if_neg h1, if_neg h2, if_pos h3]; simp [Mem.set_self], fun _ => hcons.symm⟩
    rw [if_neg h3]
    cases hw : memWrite (m b) (off + i) [c] with
    | fault e =>
      exact ⟨_, hl1, by rw [httpHeaderStrncpy, if_neg h1, if_neg h2, if_neg h3, hw]; rfl, fun _ => hcons.symm⟩
    | more => simp [memWrite] at hw; split at hw <;> cases hw
    | ok blk =>
      obtain ⟨rfl, hin⟩ := memWrite_inv hw
      obtain ⟨f, hf, he, hcl⟩ := strncpyP_eq b off s isF rem (i + 1) (m.set b (splice (m b) (off + i) [c]))
        (hr.set (splice_length hin)) (by omega)
      refine ⟨c :: f, by simp [hf], ?_, fun hcl' => ?_⟩
      · rw [httpHeaderStrncpy, if_neg h1, if_neg h2, if_neg h3, hw]
        simp only [Run.ok_bind]
        rw [he]
        simp only [Mem.set_same, Mem.set_set, Nat.add_assoc]
      · rw [hcons, hcl hcl']
        congr 1
        apply Src.drop_set hin
        intro bk o l hs
        subst hs
        simp only [Src.Clear] at hcl'
        simp only [List.length_singleton]
        rcases hcl' with h | h | h
        · exact .inl h
        · right; left; omega
        · right; right; omega

theorem memcpyP_lit (m : Mem) (b off : Nat) (s : Bytes) :
    memcpyP m b off (.lit s) = (memWrite (m b) off s >>= fun x => .ok (m.set b x)) := rfl

/-- blocks of the same length that agree outside [lo, hi) -/
def Agree (x y : Bytes) (lo hi : Nat) : Prop := x.length = y.length ∧ ∀ k, k < lo ∨ hi ≤ k → x[k]? = y[k]?

theorem Agree.refl (x : Bytes) (lo hi : Nat) : Agree x x lo hi := ⟨rfl, fun _ _ => rfl⟩

theorem Agree.trans {x y z : Bytes} {lo hi lo' hi' : Nat} (h : Agree x y lo hi) (h' : Agree y z lo' hi') :
    Agree x z (min lo lo') (max hi hi') :=
  ⟨h.1.trans h'.1, fun k hk => (h.2 k (by omega)).trans (h'.2 k (by omega))⟩

theorem Agree.mono {x y : Bytes} {lo hi lo' hi' : Nat} (h : Agree x y lo hi) (h1 : lo' ≤ lo) (h2 : hi ≤ hi') : Agree x y lo' hi' :=
  ⟨h.1, fun k hk => h.2 k (by omega)⟩

theorem memWrite_agree {blk : Bytes} {off : Nat} {bs r : Bytes} (h : memWrite blk off bs = .ok r) :
    Agree r blk off (off + bs.length) := by
  obtain ⟨rfl, hin⟩ := memWrite_inv h
  exact ⟨splice_length hin, fun k hk => splice_get hin hk⟩

theorem strncpy_agree (isF : Bool) : ∀ (f blk : Bytes) (off : Nat) (r : Bool × Bytes), httpHeaderStrncpy blk off f isF = .ok r →
    Agree r.2 blk off (off + f.length)
  | [], blk, off, r, h => by
    simp only [httpHeaderStrncpy, Run.ok.injEq] at h; subst h; exact Agree.refl ..
  | c :: cs, blk, off, r, h => by
    cases hc : okByte isF c with
    | false =>
      rw [strncpy_step_bad _ _ _ _ _ hc, Run.ok.injEq] at h; subst h; exact Agree.refl ..
    | true =>
      rw [strncpy_step_ok _ _ _ _ _ hc, Run.bind_eq_ok] at h
      obtain ⟨x, hx, h⟩ := h
      have h1 := memWrite_agree hx
      have h2 := strncpy_agree isF cs x (off + 1) r h
      refine (h2.trans h1).mono (by omega) ?_
      simp only [List.length_cons, List.length_nil]; omega

theorem Src.bytes_agree {m : Mem} {s : Src} {b lo hi : Nat} {x : Bytes} (hx : Agree x (m b) lo hi) (hc : s.Clear b lo hi) :
    s.bytes (m.set b x) = s.bytes m := by
  cases s with
  | lit s => rfl
  | «at» blk off len =>
    simp only [Src.Clear] at hc
    simp only [Src.bytes]
    by_cases hb : blk = b
    · subst hb
      rw [Mem.set_same]
      apply List.ext_getElem?
      intro j
      simp only [List.getElem?_take, List.getElem?_drop]
      split
      · apply hx.2
        rcases hc with h | h | h
        · exact absurd rfl h
        · left; omega
        · right; omega
      · rfl
    · rw [Mem.set_other _ _ hb]

theorem Src.Clear.mono {s : Src} {b lo hi lo' hi' : Nat} (h : s.Clear b lo hi) (h1 : lo ≤ lo') (h2 : hi' ≤ hi) : s.Clear b lo' hi' := by
  cases s with
  | lit s => trivial
  | «at» blk off len => simp only [Src.Clear] at *; omega

/-- the backtracking of addHeader -/
def backRun (m : Mem) (b n : Nat) : Run Nat :=
  (if HEADER_END_INDICATOR.length ≤ n then do
        let tail ← memRead (m b) (n - HEADER_END_INDICATOR.length) HEADER_END_INDICATOR.length
        if tail = HEADER_END_INDICATOR then .ok (n - LINE_SEPARATOR.length) else .ok n
      else .ok n)

/-- the new headersLen -/
def newLen (cfg : Cfg) (k f v : Nat) : Nat :=
  szAdd cfg k (szAdd cfg (szAdd cfg (szAdd cfg (szAdd cfg f FIELD_SEPARATOR.length) v) LINE_SEPARATOR.length) LINE_SEPARATOR.length)

/-- the writing part of addHeader, after the field -/
def putV (h : ReqHeaders) (n : Nat) (m : Mem) (b k : Nat) (v : Bytes) (blk : Bytes) : Run ReqOut :=
  memWrite blk k FIELD_SEPARATOR >>= fun blk =>
    httpHeaderStrncpy blk (k + FIELD_SEPARATOR.length) v false >>= fun r =>
      if r.1 = false then .ok ⟨.invalidCharacter, h, m.set b r.2⟩
      else memWrite r.2 (k + FIELD_SEPARATOR.length + v.length) HEADER_END_INDICATOR >>= fun blk =>
        .ok ⟨.success, { h with headersLen := n }, m.set b blk⟩

/-- the writing part of addHeader -/
def putFV (h : ReqHeaders) (n : Nat) (m : Mem) (b k : Nat) (f v : Bytes) : Run ReqOut :=
  httpHeaderStrncpy (m b) k f true >>= fun r =>
    if r.1 = false then .ok ⟨.invalidCharacter, h, m.set b r.2⟩ else putV h n m b (k + f.length) v r.2

/-- the writing part of addHeaderP, after the field -/
def putVP (h : ReqHeaders) (n : Nat) (b k : Nat) (v : Src) (m : Mem) : Run ReqOut :=
  memcpyP m b k (.lit FIELD_SEPARATOR) >>= fun m =>
    httpHeaderStrncpyP b (k + FIELD_SEPARATOR.length) v false v.len 0 m >>= fun r =>
      if r.1 = false then .ok ⟨.invalidCharacter, h, r.2⟩
      else memcpyP r.2 b (k + FIELD_SEPARATOR.length + v.len) (.lit HEADER_END_INDICATOR) >>= fun m =>
        .ok ⟨.success, { h with headersLen := n }, m⟩

/-- the writing part of addHeaderP -/
def putFVP (h : ReqHeaders) (n : Nat) (m : Mem) (b k : Nat) (f v : Src) : Run ReqOut :=
  httpHeaderStrncpyP b k f true f.len 0 m >>= fun r =>
    if r.1 = false then .ok ⟨.invalidCharacter, h, r.2⟩ else putVP h n b (k + f.len) v r.2

theorem addHeader_form (cfg : Cfg) (m : Mem) (h : ReqHeaders) {b : Nat} (hb : h.pBuffer = some b) (f v : Bytes) :
    addHeader cfg m h (some f) (some v) =
      (cAssert 1362 (decide (f.length ≠ 0)) >>= fun _ => cAssert 1363 (decide (v.length ≠ 0)) >>= fun _ =>
        backRun m b h.headersLen >>= fun k =>
          if newLen cfg k f.length v.length ≤ h.bufferLen then putFV h (newLen cfg k f.length v.length) m b k f v
          else .ok ⟨.insufficientMemory, h, m⟩) := by
  obtain ⟨pb, bl, hl⟩ := h
  simp only at hb
  subst hb
  rfl

theorem addHeaderP_form (cfg : Cfg) (m : Mem) (h : ReqHeaders) {b : Nat} (hb : h.pBuffer = some b) (f v : Src) :
    addHeaderP cfg m h (some f) (some v) =
      (cAssert 1362 (decide (f.len ≠ 0)) >>= fun _ => cAssert 1363 (decide (v.len ≠ 0)) >>= fun _ =>
        backRun m b h.headersLen >>= fun k =>
          if newLen cfg k f.len v.len ≤ h.bufferLen then putFVP h (newLen cfg k f.len v.len) m b k f v
          else .ok ⟨.insufficientMemory, h, m⟩) := by
  obtain ⟨pb, bl, hl⟩ := h
  simp only at hb
  subst hb
  rfl

theorem memWrite_cases (blk : Bytes) (off : Nat) (bs : Bytes) : memWrite blk off bs = .fault .oob ∨ ∃ r, memWrite blk off bs = .ok r := by
  unfold memWrite; split
  · exact .inr ⟨_, rfl⟩
  · exact .inl rfl

theorem putVP_eq (h : ReqHeaders) (n : Nat) (b k : Nat) (value : Src) (m : Mem) (blk : Bytes) (hl : blk.length = (m b).length)
    (hr : value.Readable m) :
    ∃ v : Bytes, v.length = value.len ∧ putVP h n b k value (m.set b blk) = putV h n m b k v blk ∧
      (∀ lo, lo ≤ k → Agree blk (m b) lo k → value.Clear b lo (k + 2) → v = value.bytes m) := by
  have hlv := Src.bytes_length hr
  unfold putVP putV
  rw [memcpyP_lit, Mem.set_same]
  rcases memWrite_cases blk k FIELD_SEPARATOR with e | ⟨x, e⟩
  · rw [e]; exact ⟨_, hlv, rfl, fun _ _ _ _ => rfl⟩
  rw [e]
  simp only [Run.ok_bind, Mem.set_set]
  have hx := memWrite_agree e
  obtain ⟨v, hv, he, hc⟩ := strncpyP_eq b (k + FIELD_SEPARATOR.length) value false value.len 0 (m.set b x)
    (hr.set (hx.1.trans hl)) (by omega)
  refine ⟨v, hv, ?_, fun lo hlo hag hcl => ?_⟩
  · rw [he]
    simp only [Mem.set_same, Mem.set_set, Nat.add_zero, Run.bind_assoc', Run.ok_bind, memcpyP_lit, hv]
  · have h2 : (FIELD_SEPARATOR : Bytes).length = 2 := rfl
    rw [h2] at hx hc
    rw [hc, List.drop_zero]
    · exact Src.bytes_agree ((hx.trans hag).mono (by omega) (by omega : _ ≤ k + 2)) hcl
    · exact hcl.mono (by omega) (Nat.le_refl _)

theorem putFVP_eq (h : ReqHeaders) (n : Nat) (b k : Nat) (field value : Src) (m : Mem)
    (hf : field.Readable m) (hr : value.Readable m) :
    ∃ f v : Bytes, f.length = field.len ∧ v.length = value.len ∧ putFVP h n m b k field value = putFV h n m b k f v ∧
      (field.Clear b k k → f = field.bytes m) ∧ (value.Clear b k (k + field.len + 2) → v = value.bytes m) := by
  have hlv := Src.bytes_length hr
  obtain ⟨f, hfl, he, hc⟩ := strncpyP_eq b k field true field.len 0 m hf (by omega)
  rw [Nat.add_zero] at he
  rw [List.drop_zero] at hc
  unfold putFVP putFV
  rw [he]
  cases e : httpHeaderStrncpy (m b) k f true with
  | fault e => exact ⟨f, _, hfl, hlv, by rw [e]; rfl, hc, fun _ => rfl⟩
  | more => exact ⟨f, _, hfl, hlv, by rw [e]; rfl, hc, fun _ => rfl⟩
  | ok r =>
    have hag := strncpy_agree true _ _ _ _ e
    obtain ⟨v, hv, hve, hvc⟩ := putVP_eq h n b (k + field.len) value m r.2 hag.1 hr
    rw [hfl] at hag
    refine ⟨f, v, hfl, hv, ?_, hc, fun hcl => hvc k (by omega) hag hcl⟩
    rw [e, hfl]
    simp only [Run.ok_bind]
    rw [hve]

theorem addHeaderP_eq (cfg : Cfg) (m : Mem) (h : ReqHeaders) {b : Nat} (hb : h.pBuffer = some b) {field value : Src}
    (hrf : field.Readable m) (hrv : value.Readable m) :
    ∃ f v : Bytes, f.length = field.len ∧ v.length = value.len ∧
      addHeaderP cfg m h (some field) (some value) = addHeader cfg m h (some f) (some v) ∧
      ((∀ k, backRun m b h.headersLen = .ok k → field.Clear b k k) → f = field.bytes m) ∧
      ((∀ k, backRun m b h.headersLen = .ok k → value.Clear b k (k + field.len + 2)) → v = value.bytes m) := by
  have hlf := Src.bytes_length hrf
  have hlv := Src.bytes_length hrv
  rw [addHeaderP_form _ _ _ hb]
  cases hk : backRun m b h.headersLen with
  | fault e => exact ⟨_, _, hlf, hlv, by rw [addHeader_form _ _ _ hb, hlf, hlv, hk]; rfl, fun _ => rfl, fun _ => rfl⟩
  | more => exact ⟨_, _, hlf, hlv, by rw [addHeader_form _ _ _ hb, hlf, hlv, hk]; rfl, fun _ => rfl, fun _ => rfl⟩
  | ok k =>
    obtain ⟨f, v, hf, hv, he, h1, h2⟩ := putFVP_eq h (newLen cfg k field.len value.len) b k field value m hrf hrv
    refine ⟨f, v, hf, hv, ?_, fun hc => h1 (hc k rfl), fun hc => h2 (hc k rfl)⟩
    rw [addHeader_form _ _ _ hb, hf, hv, hk]
    simp only [Run.ok_bind, he]

theorem addHeaderP_lit (cfg : Cfg) (m : Mem) (h : ReqHeaders) (f v : Bytes) :
    addHeaderP cfg m h (some (.lit f)) (some (.lit v)) = addHeader cfg m h (some f) (some v) := by
  cases hb : h.pBuffer with
  | none => simp [addHeaderP, addHeader, hb]
  | some b =>
    obtain ⟨f', v', _, _, e, h1, h2⟩ := addHeaderP_eq cfg m h hb (field := .lit f) (value := .lit v) trivial trivial
    rw [e, h1 (fun _ _ => trivial), h2 (fun _ _ => trivial)]
    rfl

theorem backRun_eq {m : Mem} {b n : Nat} (h : n ≤ (m b).length) : backRun m b n = .ok (kept (m b) n) := backtrack_eq (m b) n h

/-! Initialisation -/

theorem memcpyP_eq {m : Mem} {b off : Nat} {s : Src} (hr : s.Readable m) (hc : s.Clear b off (off + s.len)) :
    memcpyP m b off s = (memWrite (m b) off (s.bytes m) >>= fun x => .ok (m.set b x)) := by
  cases s with
  | lit s => rfl
  | «at» blk o len =>
    simp only [Src.Clear, Src.len, Src.Readable] at hc hr
    unfold memcpyP
    simp only
    rw [if_neg (by omega), memRead, if_pos hr]
    rfl

/-- the result differs from `m` in block `b` only, which keeps its length -/
def OnlyB (m : Mem) (b : Nat) (m' : Mem) : Prop := ∃ x, m' = m.set b x ∧ x.length = (m b).length

theorem OnlyB.refl (m : Mem) (b : Nat) : OnlyB m b m := ⟨m b, (Mem.set_self m b).symm, rfl⟩
theorem OnlyB.trans {m m' m'' : Mem} {b : Nat} (h : OnlyB m b m') (h' : OnlyB m' b m'') : OnlyB m b m'' := by
  obtain ⟨x, rfl, hx⟩ := h
  obtain ⟨y, rfl, hy⟩ := h'
  exact ⟨y, by simp, by simpa [hx] using hy⟩

theorem putV_only {h : ReqHeaders} {n : Nat} {m : Mem} {b k : Nat} {v blk : Bytes} {r : ReqOut} (hr : putV h n m b k v blk = .ok r)
    (hl : blk.length = (m b).length) : OnlyB m b r.mem ∧ r.hdrs.pBuffer = h.pBuffer := by
  unfold putV at hr
  rw [Run.bind_eq_ok] at hr
  obtain ⟨x, hx, hr⟩ := hr
  rw [Run.bind_eq_ok] at hr
  obtain ⟨y, hy, hr⟩ := hr
  have h1 := (memWrite_agree hx).1
  have h2 := (strncpy_agree _ _ _ _ _ hy).1
  split at hr
  · cases hr; exact ⟨⟨y.2, rfl, by omega⟩, rfl⟩
  · rw [Run.bind_eq_ok] at hr
    obtain ⟨z, hz, hr⟩ := hr
    have h3 := (memWrite_agree hz).1
    cases hr; exact ⟨⟨z, rfl, by omega⟩, rfl⟩

theorem addHeader_only {cfg : Cfg} {m : Mem} {h : ReqHeaders} {b : Nat} (hb : h.pBuffer = some b) {f v : Bytes} {r : ReqOut}
    (hr : addHeader cfg m h (some f) (some v) = .ok r) : OnlyB m b r.mem ∧ r.hdrs.pBuffer = some b := by
  rw [addHeader_form _ _ _ hb, Run.bind_eq_ok] at hr
  obtain ⟨_, _, hr⟩ := hr
  rw [Run.bind_eq_ok] at hr
  obtain ⟨_, _, hr⟩ := hr
  rw [Run.bind_eq_ok] at hr
  obtain ⟨k, _, hr⟩ := hr
  split at hr
  · unfold putFV at hr
    rw [Run.bind_eq_ok] at hr
    obtain ⟨x, hx, hr⟩ := hr
    have h1 := (strncpy_agree _ _ _ _ _ hx).1
    split at hr
    · cases hr; exact ⟨⟨x.2, rfl, h1⟩, hb⟩
    · rw [← hb]; exact putV_only hr h1
  · cases hr; exact ⟨OnlyB.refl .., hb⟩

/-- what the six copies of writeRequestLine write -/
def lineRun (m : Mem) (b : Nat) (me p : Bytes) : Run Bytes := do
  let blk ← memWrite (m b) 0 me
  let blk ← memWrite blk me.length [SPACE]
  let blk ← memWrite blk (me.length + 1) p
  let blk ← memWrite blk (me.length + 1 + p.length) [SPACE]
  let blk ← memWrite blk (me.length + 1 + p.length + 1) PROTOCOL_VERSION
  memWrite blk (me.length + 1 + p.length + 1 + PROTOCOL_VERSION.length) LINE_SEPARATOR

/-- toAddLen of writeRequestLine -/
def lineLen (cfg : Cfg) (me p : Nat) : Nat :=
  szAdd cfg (szAdd cfg (szAdd cfg (szAdd cfg (szAdd cfg me 1) 1) PROTOCOL_VERSION.length) LINE_SEPARATOR.length) p

theorem writeRequestLine_form (cfg : Cfg) (m : Mem) (h : ReqHeaders) {b : Nat} (hb : h.pBuffer = some b) (me : Bytes) (pPath : Option Bytes) :
    writeRequestLine cfg m h (some me) pPath =
      (cAssert 1532 (decide (me.length ≠ 0)) >>= fun _ =>
        if szAdd cfg (lineLen cfg me.length (pathOrDefault pPath).length) h.headersLen > h.bufferLen then .ok ⟨.insufficientMemory, h, m⟩
        else lineRun m b me (pathOrDefault pPath) >>= fun blk =>
          .ok ⟨.success, { h with headersLen := lineLen cfg me.length (pathOrDefault pPath).length }, m.set b blk⟩) := by
  obtain ⟨pb, bl, hl⟩ := h
  simp only at hb
  subst hb
  simp only [lineRun, Run.bind_assoc']
  rfl

theorem pathOrDefaultP_readable {m : Mem} {p : Option Src} (h : ∀ s, p = some s → s.Readable m) : (pathOrDefaultP p).Readable m := by
  cases p with
  | none => trivial
  | some s =>
    simp only [pathOrDefaultP]
    split
    · trivial
    · exact h s rfl

theorem pathOrDefault_bytes {m : Mem} {p : Option Src} (h : ∀ s, p = some s → s.Readable m) :
    pathOrDefault (p.map (Src.bytes m)) = (pathOrDefaultP p).bytes m := by
  cases p with
  | none => rfl
  | some s =>
    have hl := Src.bytes_length (h s rfl)
    simp only [pathOrDefaultP, Option.map_some]
    split
    · rename_i h0
      rw [h0] at hl
      rw [List.length_eq_zero_iff.mp hl]; rfl
    · rename_i h0
      cases hx : s.bytes m with
      | nil => rw [hx] at hl; simp at hl; omega
      | cons a l => rfl

theorem memWrite_more (blk : Bytes) (off : Nat) (bs : Bytes) : memWrite blk off bs ≠ .more := by
  unfold memWrite; split <;> simp

/-- the copies of writeRequestLineP -/
def lineRunP (m : Mem) (b : Nat) (me p : Src) : Run Mem := do
  let m ← memcpyP m b 0 me
  let m ← memcpyP m b me.len (.lit [SPACE])
  let m ← memcpyP m b (me.len + 1) p
  let m ← memcpyP m b (me.len + 1 + p.len) (.lit [SPACE])
  let m ← memcpyP m b (me.len + 1 + p.len + 1) (.lit PROTOCOL_VERSION)
  memcpyP m b (me.len + 1 + p.len + 1 + PROTOCOL_VERSION.length) (.lit LINE_SEPARATOR)

theorem writeRequestLineP_form (cfg : Cfg) (m : Mem) (h : ReqHeaders) {b : Nat} (hb : h.pBuffer = some b) (me : Src) (pPath : Option Src) :
    writeRequestLineP cfg m h (some me) pPath =
      (cAssert 1532 (decide (me.len ≠ 0)) >>= fun _ =>
        if szAdd cfg (lineLen cfg me.len (pathOrDefaultP pPath).len) h.headersLen > h.bufferLen then .ok ⟨.insufficientMemory, h, m⟩
        else lineRunP m b me (pathOrDefaultP pPath) >>= fun m' =>
          .ok ⟨.success, { h with headersLen := lineLen cfg me.len (pathOrDefaultP pPath).len }, m'⟩) := by
  obtain ⟨pb, bl, hl⟩ := h
  simp only at hb
  subst hb
  simp only [lineRunP, Run.bind_assoc']
  rfl

theorem lineRunP_eq {m : Mem} {b : Nat} {me p : Src} (hm : me.Readable m) (hp : p.Readable m) (hcm : me.Clear b 0 me.len)
    (hcp : p.Clear b (me.len + 1) (me.len + 1 + p.len)) :
    ∃ p' : Bytes, p'.length = p.len ∧ lineRunP m b me p = (lineRun m b (me.bytes m) p' >>= fun x => .ok (m.set b x)) ∧
      (p.Clear b 0 (me.len + 1 + p.len) → p' = p.bytes m) := by
  have hml := Src.bytes_length hm
  have hpl := Src.bytes_length hp
  unfold lineRunP lineRun
  rw [memcpyP_eq hm (by simpa using hcm), hml]
  rcases memWrite_cases (m b) 0 (me.bytes m) with e | ⟨x, e⟩
  · rw [e]; exact ⟨_, hpl, rfl, fun _ => rfl⟩
  rw [e]
  have a1 := memWrite_agree e
  simp only [Run.ok_bind, memcpyP_lit, Mem.set_same, Mem.set_set]
  rcases memWrite_cases x me.len [SPACE] with e | ⟨y, e⟩
  · rw [e]; exact ⟨_, hpl, rfl, fun _ => rfl⟩
  rw [e]
  have a2 := memWrite_agree e
  simp only [Run.ok_bind]
  have hp' : p.Readable (m.set b y) := hp.set (a2.1.trans a1.1)
  rw [memcpyP_eq hp' hcp]
  refine ⟨p.bytes (m.set b y), Src.bytes_length hp', ?_, fun hc => ?_⟩
  · simp only [Run.bind_assoc', Run.ok_bind, Mem.set_same, Mem.set_set, Src.bytes_length hp']
  · refine Src.bytes_agree (lo := 0) (hi := me.len + 1) ((a2.trans a1).mono (by omega) ?_) (hc.mono (Nat.le_refl _) (by omega))
    rw [hml, List.length_singleton]; omega

theorem pathOrDefault_len (p : Option Src) (p' : Option Bytes) (h : p'.map List.length = p.map Src.len) :
    (pathOrDefault p').length = (pathOrDefaultP p).len := by
  cases p with
  | none => cases p' with
    | none => rfl
    | some _ => simp at h
  | some s => cases p' with
    | none => simp at h
    | some x =>
      simp only [Option.map_some, Option.some.injEq] at h
      cases x with
      | nil =>
        simp only [List.length_nil] at h
        simp only [pathOrDefault, pathOrDefaultP, ← h]; rfl
      | cons a l =>
        simp only [List.length_cons] at h
        simp only [pathOrDefault, pathOrDefaultP, ← h, List.length_cons]
        rw [if_neg (by omega), ← h]

theorem writeRequestLineP_eq (cfg : Cfg) (m : Mem) (h : ReqHeaders) {b : Nat} (hb : h.pBuffer = some b) {me : Src} {path : Option Src}
    (hm : me.Readable m) (hp : ∀ s, path = some s → s.Readable m) (hcm : me.Clear b 0 me.len)
    (hcp : (pathOrDefaultP path).Clear b (me.len + 1) (me.len + 1 + (pathOrDefaultP path).len)) :
    ∃ p' : Option Bytes, p'.map List.length = path.map Src.len ∧
      writeRequestLineP cfg m h (some me) path = writeRequestLine cfg m h (some (me.bytes m)) p' ∧
      ((∀ s, path = some s → s.Clear b 0 (me.len + 1 + s.len)) → p' = path.map (Src.bytes m)) := by
  have hml := Src.bytes_length hm
  have hpr := pathOrDefaultP_readable hp
  obtain ⟨q, hq, he, hex⟩ := lineRunP_eq hm hpr hcm hcp
  have hmap : (path.map (Src.bytes m)).map List.length = path.map Src.len := by
    cases path with
    | none => rfl
    | some s => simp [Src.bytes_length (hp s rfl)]
  rw [writeRequestLineP_form _ _ _ hb]
  -- the path seen
  by_cases h0 : ∀ s, path = some s → s.len = 0
  · have e1 : pathOrDefaultP path = .lit EMPTY_PATH := by
      cases path with
      | none => rfl
      | some s => simp only [pathOrDefaultP]; rw [if_pos (h0 s rfl)]
    have e2 := pathOrDefault_bytes hp
    refine ⟨_, hmap, ?_, fun _ => rfl⟩
    rw [writeRequestLine_form _ _ _ hb, hml, e2, Src.bytes_length hpr, he, hex (by rw [e1]; trivial)]
    simp only [Run.bind_assoc', Run.ok_bind]
  · obtain ⟨s, rfl, hs⟩ : ∃ s, path = some s ∧ s.len ≠ 0 := by
      apply Classical.byContradiction
      intro hno
      exact h0 fun s hs => Classical.byContradiction fun hn => hno ⟨s, hs, hn⟩
    have e1 : pathOrDefaultP (some s) = s := by simp only [pathOrDefaultP]; rw [if_neg hs]
    rw [e1] at hq he hex ⊢
    have e2 : pathOrDefault (some q) = q := by
      cases q with
      | nil => simp at hq; omega
      | cons a l => rfl
    refine ⟨some q, by simp [hq], ?_, fun hc => by rw [hex (hc s rfl)]; rfl⟩
    rw [writeRequestLine_form _ _ _ hb, hml, e2, hq, he]
    simp only [Run.bind_assoc', Run.ok_bind]

/-- the User-Agent step of initialisation -/
def uaStep (cfg : Cfg) (flags : UInt32) (r : ReqOut) : Run ReqOut :=
  if r.status = .success ∧ REQUEST_NO_USER_AGENT_FLAG &&& flags = 0 then
    addHeader cfg r.mem r.hdrs (some USER_AGENT_FIELD) (some cfg.userAgent)
  else .ok r

/-- the Connection step of initialisation -/
def connStep (cfg : Cfg) (flags : UInt32) (r : ReqOut) : Run ReqOut :=
  if r.status = .success ∧ REQUEST_KEEP_ALIVE_FLAG &&& flags ≠ 0 then
    addHeader cfg r.mem r.hdrs (some CONNECTION_FIELD) (some KEEP_ALIVE_VALUE)
  else .ok r

theorem init_form (cfg : Cfg) (m : Mem) (h : ReqHeaders) {b : Nat} (hb : h.pBuffer = some b) {me ho : Bytes} {path : Option Bytes} {fl : UInt32} :
    HTTPClient_InitializeRequestHeaders cfg m (some h) (some ⟨some me, path, some ho, fl⟩) =
      if me.length = 0 then .ok (.invalidParameter, some h, m) else if ho.length = 0 then .ok (.invalidParameter, some h, m)
      else ((writeRequestLine cfg m { h with headersLen := 0 } (some me) path >>= uaStep cfg fl) >>= fun r =>
        (if r.status = .success then addHeader cfg r.mem r.hdrs (some HOST_FIELD) (some ho) else .ok r) >>= fun r =>
        connStep cfg fl r >>= fun r => .ok (r.status, some r.hdrs, r.mem)) := by
  unfold HTTPClient_InitializeRequestHeaders
  simp only [hb]
  simp only [Run.bind_assoc']
  rfl

theorem initP_form (cfg : Cfg) (m : Mem) (h : ReqHeaders) {b : Nat} (hb : h.pBuffer = some b) {me ho : Src} {path : Option Src} {fl : UInt32} :
    HTTPClient_InitializeRequestHeadersP cfg m (some h) (some ⟨some me, path, some ho, fl⟩) =
      if me.len = 0 then .ok (.invalidParameter, some h, m) else if ho.len = 0 then .ok (.invalidParameter, some h, m)
      else ((writeRequestLineP cfg m { h with headersLen := 0 } (some me) path >>= uaStep cfg fl) >>= fun r =>
        (if r.status = .success then addHeaderP cfg r.mem r.hdrs (some (.lit HOST_FIELD)) (some ho) else .ok r) >>= fun r =>
        connStep cfg fl r >>= fun r => .ok (r.status, some r.hdrs, r.mem)) := by
  unfold HTTPClient_InitializeRequestHeadersP
  simp only [hb, addHeaderP_lit]
  simp only [Run.bind_assoc']
  rfl

theorem memWrite_only {m : Mem} {b off : Nat} {bs x : Bytes} (h : memWrite (m b) off bs = .ok x) : OnlyB m b (m.set b x) :=
  ⟨x, rfl, (memWrite_agree h).1⟩

theorem lineRun_len {m : Mem} {b : Nat} {me p x : Bytes} (h : lineRun m b me p = .ok x) : x.length = (m b).length := by
  unfold lineRun at h
  rw [Run.bind_eq_ok] at h; obtain ⟨x1, h1, h⟩ := h
  rw [Run.bind_eq_ok] at h; obtain ⟨x2, h2, h⟩ := h
  rw [Run.bind_eq_ok] at h; obtain ⟨x3, h3, h⟩ := h
  rw [Run.bind_eq_ok] at h; obtain ⟨x4, h4, h⟩ := h
  rw [Run.bind_eq_ok] at h; obtain ⟨x5, h5, h⟩ := h
  rw [(memWrite_agree h).1, (memWrite_agree h5).1, (memWrite_agree h4).1, (memWrite_agree h3).1, (memWrite_agree h2).1,
    (memWrite_agree h1).1]

theorem writeRequestLine_only {cfg : Cfg} {m : Mem} {h : ReqHeaders} {b : Nat} (hb : h.pBuffer = some b) {me : Bytes} {p : Option Bytes}
    {r : ReqOut} (hr : writeRequestLine cfg m h (some me) p = .ok r) : OnlyB m b r.mem ∧ r.hdrs.pBuffer = some b := by
  rw [writeRequestLine_form _ _ _ hb, Run.bind_eq_ok] at hr
  obtain ⟨_, _, hr⟩ := hr
  split at hr
  · cases hr; exact ⟨OnlyB.refl .., hb⟩
  · rw [Run.bind_eq_ok] at hr
    obtain ⟨x, hx, hr⟩ := hr
    cases hr; exact ⟨⟨x, rfl, lineRun_len hx⟩, hb⟩

theorem preHost_only {cfg : Cfg} {m : Mem} {h : ReqHeaders} {b : Nat} (hb : h.pBuffer = some b) {me : Bytes} {p : Option Bytes} {fl : UInt32}
    {r : ReqOut} (hr : (writeRequestLine cfg m h (some me) p >>= uaStep cfg fl) = .ok r) : OnlyB m b r.mem ∧ r.hdrs.pBuffer = some b := by
  rw [Run.bind_eq_ok] at hr
  obtain ⟨r0, h0, hr⟩ := hr
  obtain ⟨o1, b1⟩ := writeRequestLine_only hb h0
  unfold uaStep at hr
  split at hr
  · obtain ⟨o2, b2⟩ := addHeader_only b1 hr
    exact ⟨o1.trans o2, b2⟩
  · cases hr; exact ⟨o1, b1⟩

/-- length of what precedes the Host line -/
def hostLine (cfg : Cfg) (fl : UInt32) (me p : Nat) : Nat :=
  me + p + 12 + (if REQUEST_NO_USER_AGENT_FLAG &&& fl = 0 then USER_AGENT_FIELD.length + cfg.userAgent.length + 4 else 0)

theorem preHost_exact {cfg : Cfg} {m : Mem} {h : ReqHeaders} {b : Nat} (hb : h.pBuffer = some b) (hl : h.headersLen = 0) {me : Bytes} {p : Option Bytes}
    {fl : UInt32} (hme : me ≠ []) (h2 : h.bufferLen ≤ (m b).length) (hua : cfg.userAgent ≠ [])
    (hw : hostLine cfg fl me.length (pathOrDefault p).length + 2 < 2 ^ cfg.sizeBits)
    {r : ReqOut} (hr : (writeRequestLine cfg m h (some me) p >>= uaStep cfg fl) = .ok r) (hs : r.status = .success) :
    ∃ x, r.mem = m.set b x ∧ Agree x (m b) 0 (hostLine cfg fl me.length (pathOrDefault p).length + 2) ∧
      backRun r.mem b r.hdrs.headersLen = .ok (hostLine cfg fl me.length (pathOrDefault p).length) := by
  have hrl := requestLine_length me (pathOrDefault p)
  rw [writeRequestLine_eq hb hl hme h2 (by rw [hrl]; unfold hostLine at hw; omega)] at hr
  by_cases hfit : h.bufferLen < (requestLine me (pathOrDefault p)).length
  · rw [if_pos hfit] at hr
    simp only [Run.ok_bind, uaStep, reduceCtorEq, false_and, if_false, Run.ok.injEq] at hr
    rw [← hr] at hs; cases hs
  rw [if_neg hfit] at hr
  simp only [Run.ok_bind, uaStep, true_and] at hr
  generalize hrle : requestLine me (pathOrDefault p) = rl at *
  have hin : 0 + rl.length ≤ (m b).length := by omega
  have htake : (splice (m b) 0 rl).take rl.length = rl := by rw [take_splice hin (by simp)]; simp
  have hstrip : stripBlankLine rl = rl := by rw [← hrle]; exact strip_requestLine _ _
  have hkept : kept (splice (m b) 0 rl) rl.length = rl.length := by unfold kept; rw [htake, hstrip]
  have hag : Agree (splice (m b) 0 rl) (m b) 0 rl.length := by
    have := splice_length hin
    exact ⟨this, fun k hk => splice_get hin (by omega)⟩
  have hsl := splice_length hin
  by_cases hu : REQUEST_NO_USER_AGENT_FLAG &&& fl = 0
  · have hH : hostLine cfg fl me.length (pathOrDefault p).length = rl.length + USER_AGENT_FIELD.length + cfg.userAgent.length + 4 := by
      unfold hostLine; rw [if_pos hu]; omega
    rw [hH] at hw ⊢
    rw [if_pos hu] at hr
    have hf : (USER_AGENT_FIELD : Bytes) ≠ [] := by decide
    have hblk : stripBlankLine (headerBlock (m.set b (splice (m b) 0 rl)) { h with headersLen := rl.length }) = rl := by
      simp only [headerBlock, hb, Mem.set_same]; rw [htake, hstrip]
    have hA := addHeader_eq (cfg := cfg) (m := m.set b (splice (m b) 0 rl)) (h := { h with headersLen := rl.length }) (b := b)
      (f := USER_AGENT_FIELD) (v := cfg.userAgent) hb hf hua (by simp only; omega) (by simp only [Mem.set_same]; omega)
      (by simp only [Mem.set_same, hkept]; omega)
    simp only [Mem.set_same, hkept, Mem.set_set] at hA
    simp only [hb] at hr hA
    rw [hA] at hr
    by_cases c1 : h.bufferLen < rl.length + USER_AGENT_FIELD.length + cfg.userAgent.length + 6
    · rw [if_pos c1] at hr; cases hr; cases hs
    rw [if_neg c1] at hr
    by_cases c2 : ¬ CleanField USER_AGENT_FIELD
    · rw [if_pos c2] at hr; cases hr; cases hs
    rw [if_neg c2] at hr
    by_cases c3 : ¬ CleanValue cfg.userAgent
    · rw [if_pos c3] at hr; cases hr; cases hs
    rw [if_neg c3] at hr
    cases hr
    have hll : (headerLine USER_AGENT_FIELD cfg.userAgent ++ crlf).length = USER_AGENT_FIELD.length + cfg.userAgent.length + 6 := by
      rw [List.length_append, headerLine_length, len_crlf]
    have hin2 : rl.length + (headerLine USER_AGENT_FIELD cfg.userAgent ++ crlf).length ≤ (splice (m b) 0 rl).length := by
      rw [hll, hsl]; omega
    refine ⟨_, rfl, ?_, ?_⟩
    · have h1 : Agree (splice (splice (m b) 0 rl) rl.length (headerLine USER_AGENT_FIELD cfg.userAgent ++ crlf)) (splice (m b) 0 rl)
          rl.length (rl.length + (headerLine USER_AGENT_FIELD cfg.userAgent ++ crlf).length) :=
        ⟨splice_length hin2, fun k hk => splice_get hin2 hk⟩
      exact (h1.trans hag).mono (by omega) (by rw [hll]; omega)
    · simp only
      rw [backRun_eq (by rw [Mem.set_same, splice_length hin2, hsl]; omega), Mem.set_same]
      congr 1
      unfold kept
      rw [show rl.length + USER_AGENT_FIELD.length + cfg.userAgent.length + 6 =
        rl.length + (headerLine USER_AGENT_FIELD cfg.userAgent ++ crlf).length by rw [hll]; omega]
      rw [take_splice hin2 rfl, htake]
      rw [← List.append_assoc, strip_crlf (crlf_suffix_headerLine _ _ _), List.length_append, headerLine_length]
      omega
  · have hH : hostLine cfg fl me.length (pathOrDefault p).length = rl.length := by
      unfold hostLine; rw [if_neg hu]; omega
    rw [hH]
    rw [if_neg hu] at hr
    cases hr
    refine ⟨_, rfl, hag.mono (by omega) (by omega), ?_⟩
    simp only
    rw [backRun_eq (by rw [Mem.set_same, hsl]; omega), Mem.set_same, hkept]

theorem initP_eq (cfg : Cfg) (m : Mem) (h : ReqHeaders) {b : Nat} (hb : h.pBuffer = some b) {me ho : Src} {path : Option Src} {fl : UInt32}
    (hm : me.Readable m) (hp : ∀ s, path = some s → s.Readable m) (hh : ho.Readable m)
    (hcm : me.Clear b 0 me.len)
    (hcp : ∀ s, path = some s → s.Clear b (me.len + 1) (me.len + 1 + s.len)) :
    ∃ (p' : Option Bytes) (ho' : Bytes), p'.map List.length = path.map Src.len ∧ ho'.length = ho.len ∧
      HTTPClient_InitializeRequestHeadersP cfg m (some h) (some ⟨some me, path, some ho, fl⟩) =
        HTTPClient_InitializeRequestHeaders cfg m (some h) (some ⟨some (me.bytes m), p', some ho', fl⟩) ∧
      ((∀ s, path = some s → s.Clear b 0 (me.len + 1 + s.len)) → p' = path.map (Src.bytes m)) ∧
      (h.bufferLen ≤ (m b).length → cfg.userAgent ≠ [] →
        hostLine cfg fl me.len (pathOrDefaultP path).len + 2 < 2 ^ cfg.sizeBits →
        ho.Clear b 0 (hostLine cfg fl me.len (pathOrDefaultP path).len + 6) → ho' = ho.bytes m) := by
  have hml := Src.bytes_length hm
  have hhl := Src.bytes_length hh
  have hcp' : (pathOrDefaultP path).Clear b (me.len + 1) (me.len + 1 + (pathOrDefaultP path).len) := by
    cases path with
    | none => trivial
    | some s =>
      simp only [pathOrDefaultP]
      split
      · trivial
      · exact hcp s rfl
  obtain ⟨p', hpl, hpe, hpx⟩ := writeRequestLineP_eq cfg m { h with headersLen := 0 } hb hm hp hcm hcp'
  have hpdl := pathOrDefault_len path p' hpl
  rw [initP_form _ _ _ hb]
  by_cases h0 : me.len = 0
  · exact ⟨p', _, hpl, hhl, by rw [init_form _ _ _ hb, hml, if_pos h0, if_pos h0], hpx, fun _ _ _ _ => rfl⟩
  by_cases h1 : ho.len = 0
  · exact ⟨p', _, hpl, hhl, by rw [init_form _ _ _ hb, hml, hhl, if_neg h0, if_neg h0, if_pos h1, if_pos h1], hpx, fun _ _ _ _ => rfl⟩
  rw [if_neg h0, if_neg h1, hpe]
  have key : ∀ ho' : Bytes, ho'.length = ho.len →
      HTTPClient_InitializeRequestHeaders cfg m (some h) (some ⟨some (me.bytes m), p', some ho', fl⟩) =
      ((writeRequestLine cfg m { h with headersLen := 0 } (some (me.bytes m)) p' >>= uaStep cfg fl) >>= fun r =>
        (if r.status = .success then addHeader cfg r.mem r.hdrs (some HOST_FIELD) (some ho') else .ok r) >>= fun r =>
        connStep cfg fl r >>= fun r => .ok (r.status, some r.hdrs, r.mem)) := by
    intro ho' hl
    rw [init_form _ _ _ hb, hml, hl, if_neg h0, if_neg h1]
  cases hX : (writeRequestLine cfg m { h with headersLen := 0 } (some (me.bytes m)) p' >>= uaStep cfg fl) with
  | fault e => exact ⟨p', _, hpl, hhl, by rw [key _ hhl, hX]; rfl, hpx, fun _ _ _ _ => rfl⟩
  | more => exact ⟨p', _, hpl, hhl, by rw [key _ hhl, hX]; rfl, hpx, fun _ _ _ _ => rfl⟩
  | ok r =>
    obtain ⟨⟨x, hx, hxl⟩, hrb⟩ := preHost_only (cfg := cfg) (m := m) (h := { h with headersLen := 0 }) (b := b) hb (me := me.bytes m) (p := p') (fl := fl) (r := r) hX
    by_cases hs : ¬ r.status = .success
    · refine ⟨p', _, hpl, hhl, ?_, hpx, fun _ _ _ _ => rfl⟩
      rw [key _ hhl, hX]
      simp only [Run.ok_bind, if_neg hs]
    have hs : r.status = .success := Classical.not_not.mp hs
    have hrr : ho.Readable r.mem := by rw [hx]; exact hh.set hxl
    obtain ⟨f, v, hf, hv, he, hfx, hvx⟩ := addHeaderP_eq cfg r.mem r.hdrs hrb (field := .lit HOST_FIELD) trivial hrr
    have hfe : f = HOST_FIELD := hfx fun _ _ => trivial
    subst hfe
    refine ⟨p', v, hpl, hv, ?_, hpx, fun hbl hua hw hcl => ?_⟩
    · rw [key _ hv, hX]
      simp only [Run.ok_bind, if_pos hs, he]
    · have hme : me.bytes m ≠ [] := by intro e; rw [e] at hml; exact h0 hml.symm
      rw [← hml, ← hpdl] at hw hcl
      obtain ⟨y, hy, hag, hbr⟩ := preHost_exact (h := { h with headersLen := 0 }) hb rfl hme hbl hua hw hX hs
      have hcl2 : ho.Clear b (hostLine cfg fl (me.bytes m).length (pathOrDefault p').length)
          (hostLine cfg fl (me.bytes m).length (pathOrDefault p').length + (Src.lit HOST_FIELD).len + 2) :=
        hcl.mono (Nat.zero_le _) (by
          rw [show (Src.lit HOST_FIELD).len = 4 by decide]
          exact Nat.le_refl _)
      rw [hvx (fun k hk => ?_), hy]
      · exact Src.bytes_agree hag (hcl.mono (Nat.le_refl _) (by omega))
      · rw [hbr] at hk
        cases hk
        exact hcl2

end CoreHttp

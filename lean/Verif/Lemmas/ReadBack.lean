import Verif.Spec.Request
import Verif.Lemmas.RequestApi

/-! Reading a serialised request back. -/

namespace CoreHttp
open Spec

theorem takeLine_clean (line rest : Bytes) (h : ∀ c ∈ line, c ≠ 13) :
    takeLine (line ++ crlf ++ rest) = some (line, rest) := by
  induction line with
  | nil => simp [crlf, takeLine]
  | cons c line ih =>
    have hc : c ≠ 13 := h c (by simp)
    have := ih (fun x hx => h x (by simp [hx]))
    simp only [List.cons_append, takeLine, hc, false_and, if_false]
    rw [this]; rfl

theorem splitHeader_clean (f v : Bytes) (h : ∀ c ∈ f, c ≠ 58) : splitHeader (f ++ [58, 32] ++ v) = some (f, v) := by
  induction f with
  | nil => simp [splitHeader]
  | cons c f ih =>
    have hc : c ≠ 58 := h c (by simp)
    have := ih (fun x hx => h x (by simp [hx]))
    simp only [List.cons_append, splitHeader, hc, if_false]
    rw [this]; rfl

theorem readHeaders_block (hs : List (Bytes × Bytes)) (rest : Bytes) (n : Nat) (hn : hs.length < n)
    (h : ∀ p ∈ hs, p.1 ≠ [] ∧ CleanField p.1 ∧ CleanValue p.2) :
    readHeaders n (headerLines hs ++ crlf ++ rest) = some (hs, rest) := by
  induction hs generalizing n with
  | nil =>
    obtain ⟨n, rfl⟩ : ∃ k, n = k + 1 := ⟨n - 1, by simp at hn; omega⟩
    have e := takeLine_clean [] rest (by simp)
    simp only [List.nil_append] at e
    simp [readHeaders, headerLines, e]
  | cons p hs ih =>
    obtain ⟨f, v⟩ := p
    obtain ⟨n, rfl⟩ : ∃ k, n = k + 1 := ⟨n - 1, by simp at hn; omega⟩
    obtain ⟨hf, hcf, hcv⟩ := h (f, v) (by simp)
    have h13 : ∀ c ∈ f ++ [58, 32] ++ v, c ≠ 13 := by
      intro c hc
      simp only [List.mem_append, List.mem_cons, List.not_mem_nil, or_false] at hc
      rcases hc with (hc | rfl | rfl) | hc
      · exact (hcf c hc).1
      · decide
      · decide
      · exact (hcv c hc).1
    have e := takeLine_clean (f ++ [58, 32] ++ v) (headerLines hs ++ crlf ++ rest) h13
    have e2 : headerLines ((f, v) :: hs) ++ crlf ++ rest = f ++ [58, 32] ++ v ++ crlf ++ (headerLines hs ++ crlf ++ rest) := by
      simp [headerLines_cons, headerLine, List.append_assoc]
    have hne : f ++ [58, 32] ++ v ≠ [] := by simp
    rw [e2]
    unfold readHeaders
    simp only [e, Option.bind_eq_bind, Option.bind_some, hne, if_false,
      splitHeader_clean f v (fun c hc => (hcf c hc).2.2)]
    rw [ih n (by simp at hn; omega) (fun p hp => h p (by simp [hp]))]
    rfl

theorem headerLines_length (hs : List (Bytes × Bytes)) : hs.length ≤ (headerLines hs).length := by
  induction hs with
  | nil => simp
  | cons p hs ih =>
    obtain ⟨f, v⟩ := p
    rw [headerLines_cons, List.length_append, headerLine_length, List.length_cons]; omega

theorem readRequest_block (me p : Bytes) (hs : List (Bytes × Bytes)) (rest : Bytes)
    (hm : CleanValue me) (hp : CleanValue p) (h : ∀ q ∈ hs, q.1 ≠ [] ∧ CleanField q.1 ∧ CleanValue q.2) :
    readRequest (requestBlock (requestLine me p) hs ++ rest)
      = some (me ++ [32] ++ p ++ [32] ++ ascii "HTTP/1.1", hs, rest) := by
  have h13 : ∀ c ∈ me ++ [32] ++ p ++ [32] ++ ascii "HTTP/1.1", c ≠ 13 := by
    intro c hc
    rcases List.mem_append.mp hc with hc | hc
    · rcases List.mem_append.mp hc with hc | hc
      · rcases List.mem_append.mp hc with hc | hc
        · rcases List.mem_append.mp hc with hc | hc
          · exact (hm c hc).1
          · simp at hc; subst hc; decide
        · exact (hp c hc).1
      · simp at hc; subst hc; decide
    · have : ∀ c ∈ ascii "HTTP/1.1", c ≠ 13 := by decide
      exact this c hc
  have e := takeLine_clean (me ++ [32] ++ p ++ [32] ++ ascii "HTTP/1.1") (headerLines hs ++ crlf ++ rest) h13
  have e2 : requestBlock (requestLine me p) hs ++ rest
      = me ++ [32] ++ p ++ [32] ++ ascii "HTTP/1.1" ++ crlf ++ (headerLines hs ++ crlf ++ rest) := by
    simp [requestBlock, requestLine, List.append_assoc]
  unfold readRequest
  rw [e2, e]
  simp only [Option.bind_eq_bind, Option.bind_some]
  rw [readHeaders_block hs rest _ (by
    have := headerLines_length hs
    simp only [List.length_append, len_crlf]; omega) h]
  rfl

/-- No CR LF pair in a line: it is read as one line; and conversely. -/
theorem takeLine_iff (line rest : Bytes) : takeLine (line ++ crlf ++ rest) = some (line, rest) ↔ ¬ crlf <:+: line := by
  induction line with
  | nil => simp [crlf, takeLine]
  | cons c line ih =>
    by_cases hc : c = 13 ∧ (line ++ crlf ++ rest).head? = some 10
    · simp only [List.cons_append, takeLine, hc, and_self, if_true]
      constructor
      · intro h; simp at h
      · intro h
        refine absurd ?_ h
        cases line with
        | nil => simp [crlf] at hc
        | cons d line =>
          obtain ⟨rfl, h2⟩ := hc
          simp only [List.cons_append, List.head?_cons, Option.some.injEq] at h2
          subst h2
          exact (List.prefix_append crlf line).isInfix
    · have hstep : takeLine (c :: line ++ crlf ++ rest) = (takeLine (line ++ crlf ++ rest)).map (fun r => (c :: r.1, r.2)) := by
        simp only [List.cons_append, takeLine]
        rw [if_neg (by simpa using hc)]
      rw [hstep]
      have hi : crlf <:+: c :: line ↔ crlf <:+: line := by
        rw [List.infix_cons_iff]
        constructor
        · rintro (h | h)
          · exfalso
            rw [crlf, List.cons_prefix_cons] at h
            obtain ⟨rfl, h⟩ := h
            cases line with
            | nil => simp at h
            | cons d line =>
              rw [List.cons_prefix_cons] at h
              obtain ⟨rfl, _⟩ := h
              exact hc ⟨rfl, rfl⟩
          · exact h
        · exact .inr
      rw [hi, ← ih]
      constructor
      · intro h
        cases he : takeLine (line ++ crlf ++ rest) with
        | none => rw [he] at h; cases h
        | some r =>
          rw [he] at h
          simp only [Option.map_some, Option.some.injEq, Prod.mk.injEq, List.cons.injEq, true_and] at h
          obtain ⟨h1, h2⟩ := h
          rw [← h1, ← h2]
      · intro h; rw [h]; rfl

/-- A pair does not span a byte that is not part of it. -/
theorem crlf_infix_split {c : UInt8} (h13 : c ≠ 13) (h10 : c ≠ 10) (xs ys : Bytes) : crlf <:+: xs ++ c :: ys ↔ crlf <:+: xs ∨ crlf <:+: ys := by
  induction xs with
  | nil =>
    rw [List.nil_append, List.infix_cons_iff]
    constructor
    · rintro (h | h)
      · rw [crlf, List.cons_prefix_cons] at h; exact absurd h.1.symm h13
      · exact .inr h
    · rintro (h | h)
      · simp [crlf] at h
      · exact .inr h
  | cons x xs ih =>
    rw [List.cons_append, List.infix_cons_iff, List.infix_cons_iff, ih]
    have : crlf <+: x :: (xs ++ c :: ys) ↔ crlf <+: x :: xs := by
      rw [crlf, List.cons_prefix_cons, List.cons_prefix_cons]
      cases xs with
      | nil =>
        simp only [List.nil_append, List.cons_prefix_cons]
        constructor
        · rintro ⟨_, h, _⟩; exact absurd h.symm h10
        · rintro ⟨_, h⟩; simp at h
      | cons d xs => simp [List.cons_prefix_cons]
    rw [this, or_assoc]

end CoreHttp

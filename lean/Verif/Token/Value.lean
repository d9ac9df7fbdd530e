import Verif.Token.Lemmas
import Verif.GoLibLemmas

/-
Wire values: the union of the token classes.
-/

namespace Verif.Token

open Spec GoLib

theorem digitString_escaped {v : Bytes} (h : ∀ b ∈ v, Spec.Digit b ∨ b = 44) : Escaped v := by
  have := escaped_prepend h Escaped.nil
  simpa using this

theorem kind_of_value {v : Bytes} (h : Spec.Value v) {pos : Nat} (hp : pos + v.length < 2 ^ 63) :
    ∃ t, Kind pos t v := by
  rcases h with h | ⟨h1, h2, h3, h4⟩
  · exact ⟨.binaryData, h, hp⟩
  · by_cases hd : DigitString v
    · cases v with
      | nil => exact absurd rfl h1
      | cons a r =>
        by_cases ha : a = 48
        · subst ha
          by_cases hr : r = []
          · subst hr; exact ⟨.numeric, hd, Or.inl rfl⟩
          · exact ⟨.digit, r, rfl, hr, fun b hb => hd.2 b (by simp [hb])⟩
        · exact ⟨.numeric, hd, Or.inr (by simpa using ha)⟩
    · by_cases hf : Spec.Float v
      · exact ⟨.float, hf⟩
      · by_cases hl : HasLineBreak v
        · exact ⟨.text, ⟨h1, h2, h3, hd, hf⟩, h4, hl⟩
        · exact ⟨.alphaNumeric, ⟨h1, h2, h3, hd, hf⟩, h4, hl⟩

theorem not_malformed_digits {v : Bytes} (h : ∀ b ∈ v, Spec.Digit b) : ¬ MalformedFloat v := by
  rintro ⟨ds, w, rfl, _⟩
  exact comma_not_digit (h 44 (by simp))

theorem not_malformed_float {v : Bytes} (h : Spec.Float v) : ¬ MalformedFloat v := by
  obtain ⟨n, ds, rfl, hn, hds⟩ := h
  exact fun ⟨ds', w, he, hd⟩ => by
    have hnum := hn
    obtain ⟨⟨hne, hdig⟩, hz⟩ := hn
    -- both sides split at their first comma
    have h1 := span_digits hdig comma_not_digit ds
    have h2 := span_digits (ds := 48 :: ds') (by
      intro b hb
      simp only [List.mem_cons] at hb
      rcases hb with rfl | hb
      · simp [Spec.Digit]
      · exact hd.2 b hb) comma_not_digit w
    have he2 : n = 48 :: ds' := by
      rw [← h1.1, he]; exact h2.1
    subst he2
    rcases hz with hz | hz
    · simp only [List.cons.injEq, true_and] at hz; exact hd.1 hz
    · simp at hz

theorem digits_head {v : Bytes} (h : ∀ b ∈ v, Spec.Digit b ∨ b = 44) : v.head? ≠ some 64 := by
  cases v with
  | nil => simp
  | cons a r =>
    intro ha
    simp at ha; subst ha
    have := h 64 (by simp)
    simp [Spec.Digit] at this

theorem value_of_digits {v : Bytes} (h : DigitString v) : Spec.Value v :=
  Or.inr ⟨h.1, digitString_escaped fun b hb => Or.inl (h.2 b hb),
    digits_head fun b hb => Or.inl (h.2 b hb), not_malformed_digits h.2⟩

theorem float_chars {v : Bytes} (h : Spec.Float v) : ∀ b ∈ v, Spec.Digit b ∨ b = 44 := by
  obtain ⟨n, ds, rfl, hn, hds⟩ := h
  intro b hb
  simp only [List.mem_append, List.mem_cons] at hb
  rcases hb with hb | rfl | hb
  · exact Or.inl (hn.1.2 b hb)
  · exact Or.inr rfl
  · exact Or.inl (hds b hb)

theorem value_of_float {v : Bytes} (h : Spec.Float v) : Spec.Value v := by
  have hc := float_chars h
  refine Or.inr ⟨?_, digitString_escaped hc, digits_head hc, not_malformed_float h⟩
  obtain ⟨n, ds, rfl, _, _⟩ := h; simp

theorem value_of_kind {pos : Nat} {t : Typ} {v : Bytes} (h : Kind pos t v) : Spec.Value v := by
  cases t with
  | numeric => exact value_of_digits h.1
  | digit =>
    obtain ⟨ds, rfl, h⟩ := h
    refine value_of_digits ⟨by simp, ?_⟩
    intro b hb
    simp only [List.mem_cons] at hb
    rcases hb with rfl | hb
    · simp [Spec.Digit]
    · exact h.2 b hb
  | float => exact value_of_float h
  | binaryData => exact Or.inl h.1
  | alphaNumeric => exact Or.inr ⟨h.1.1, h.1.2.1, h.1.2.2.1, h.2.1⟩
  | text => exact Or.inr ⟨h.1.1, h.1.2.1, h.1.2.2.1, h.2.1⟩
  | _ => exact absurd h id

theorem value_ne_nil {v : Bytes} (h : Spec.Value v) : v ≠ [] := by
  rcases h with ⟨ds, p, rfl, _⟩ | h
  · simp
  · exact h.1

theorem value_head {v : Bytes} (h : Spec.Value v) : ∀ c, v.head? = some c → ¬ Delim c ∧ c ≠ 0 := by
  rcases h with ⟨ds, p, rfl, _⟩ | ⟨_, h, _, _⟩
  · intro c hc
    simp at hc; subst hc
    simp [Delim]
  · intro c hc
    cases v with
    | nil => simp at hc
    | cons a r =>
      simp at hc; subst hc
      refine ⟨escaped_head h, ?_⟩
      cases h with
      | plain h1 h2 h3 h4 => exact h3
      | esc => decide

/-- The escape syntax is deterministic: what follows escaped text in escaped text
is itself escaped. -/
theorem escaped_cancel {u v : Bytes} (hu : Escaped u) (h : Escaped (u ++ v)) : Escaped v := by
  induction hu with
  | nil => simpa using h
  | @plain c w h1 h2 h3 _ ih =>
    apply ih
    rw [List.cons_append] at h
    generalize w ++ v = x at h
    cases h with
    | plain _ _ _ h => exact h
    | esc => exact absurd rfl h2
  | @esc c w h1 _ ih =>
    apply ih
    rw [List.cons_append, List.cons_append] at h
    generalize w ++ v = x at h
    cases h with
    | plain _ h2 _ _ => exact absurd rfl h2
    | esc _ h => exact h

theorem escaped_append {u v : Bytes} (hu : Escaped u) (h : Escaped v) : Escaped (u ++ v) := by
  induction hu with
  | nil => simpa using h
  | plain h1 h2 h3 _ ih => exact .plain h1 h2 h3 ih
  | esc h1 _ ih => exact .esc h1 ih

/-- Cutting an unescaped-looking delimiter off the end of escaped text leaves a
dangling escape character. -/
theorem not_escaped_cut {u : Bytes} {d : Byte} (hd : Delim d) (k : Nat) (h : Escaped (u ++ List.replicate (k + 1) d)) :
    ¬ Escaped u := by
  intro hu
  have := escaped_cancel hu h
  rw [List.replicate_succ] at this
  exact escaped_head this hd

/-- No proper or improper prefix of a value is a token by itself. -/
theorem lexOne_prefix {v v' x : Bytes} (hv : Spec.Value v) (he : v = v' ++ x) {pos : Nat}
    (hp : pos + v.length < 2 ^ 63) {t : Typ} {n : Nat} : lexOne pos v' ≠ .tok t n := by
  intro h
  obtain ⟨t', hk⟩ := kind_of_value hv hp
  have h1 := lexOne_of_kind hk (d := 43) (Or.inl rfl) []
  have h2 := lexOne_append h (x ++ [43])
  rw [← List.append_assoc, ← he] at h2
  rw [h1] at h2
  simp only [One.tok.injEq] at h2
  rcases kind_of_lexOne h with ⟨d, r, rfl, hd, rfl, rfl⟩ | ⟨u, d, r, rfl, hd, rfl, _⟩
  · subst he
    exact (value_head hv d (by simp)).1 hd
  · have := congrArg List.length he
    simp at this
    omega

theorem lexOne_prefix_stop {v v' x : Bytes} (hv : Spec.Value v) (he : v = v' ++ x) (hne : v' ≠ []) {pos n : Nat} :
    lexOne pos v' ≠ .stop n := by
  intro h
  have := lexOne_stop h
  cases v' with
  | nil => exact absurd rfl hne
  | cons a r =>
    have h3 := (value_head hv a (by simp [he])).2
    simp at this
    exact h3 this.1

/-- Cutting delimiters off a value and putting another delimiter there does not
give a token that ends there. -/
theorem not_kind_cut {v u : Bytes} {d : Byte} (hd : Delim d) {k : Nat} (hv : Spec.Value v)
    (he : v = u ++ List.replicate (k + 1) d) {pos : Nat} {t : Typ} : ¬ Kind pos t u := by
  intro hk
  have hu := value_of_kind hk
  rcases hv with ⟨ds, p, rfl, hds, hlen⟩ | ⟨h1, h2, h3, h4⟩
  · -- binary: the payload became shorter than declared
    rcases hu with ⟨ds', p', rfl, hds', hlen'⟩ | ⟨g1, g2, g3, g4⟩
    · have h64 : ¬ Spec.Digit 64 := by simp [Spec.Digit]
      simp only [List.cons_append, List.cons.injEq, true_and, List.append_assoc] at he
      have e1 := span_digits hds.2 h64 p
      have e2 := span_digits hds'.2 h64 (p' ++ List.replicate (k + 1) d)
      have : ds = ds' := by
        rw [← e1.1, he]; exact e2.1
      subst this
      have h5 := congrArg List.length he
      simp at h5
      omega
    · cases u with
      | nil => exact g1 rfl
      | cons a r =>
        simp at he g3
        exact g3 he.1.symm
  · rcases hu with ⟨ds', p', rfl, hds', hlen'⟩ | ⟨g1, g2, g3, g4⟩
    · subst he; simp at h3
    · subst he
      exact not_escaped_cut hd k h2 g2

end Verif.Token

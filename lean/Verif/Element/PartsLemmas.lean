import Verif.Element.GroupLemmas
import Verif.Segment.Lemmas

/-
Exact extraction of the parts of an element.
-/

namespace Verif.Element

open GoLib Token Verif.Token.Spec

/-- A whole value at the end of the input does not make the lexer panic. -/
theorem lexOne_value_no_panic {v : Bytes} (hv : Spec.Value v) {pos : Nat} (hp : pos + v.length < 2 ^ 63) :
    lexOne pos v ≠ .panic := by
  intro h
  rw [lexOne_panic_iff] at h
  have h64 : ¬ Spec.Digit 64 := by simp [Spec.Digit]
  rcases h with rfl | ⟨ds, r, rfl, hds, h1, h2⟩
  · rcases hv with ⟨ds, p, h, _⟩ | ⟨_, _, h, _⟩
    · have := congrArg List.length h
      simp at this
    · simp at h
  · rcases hv with ⟨ds', p, h, hds', hl⟩ | ⟨_, _, h, _⟩
    · simp only [List.cons_append, List.cons.injEq, true_and] at h
      have e1 := span_digits hds.2 h64 r
      have e2 := span_digits hds'.2 h64 p
      have : ds = ds' := by rw [← e1.1, ← e2.1, h]
      subst this
      have := List.append_cancel_left h
      simp only [List.cons.injEq, true_and] at this
      subst this
      simp at hp
      omega
    · simp at h

/-- What extraction makes of parts separated by colons.  If the text contains `+` or
`'` (escaped, or in binary data) no terminator is added: the last part is lost if it
is empty, and otherwise extraction fails. -/
theorem extract_parts {init : List Bytes} {p : Bytes} (hv : ∀ q ∈ init, Part q) (hp : Part p)
    (hl : (pre 58 init ++ p).length < 2 ^ 63) :
    extractElements (pre 58 init ++ p) =
      if 43 ∈ pre 58 init ++ p ∨ 39 ∈ pre 58 init ++ p then (if p = [] then .ok init else .err)
      else .ok (init ++ [p]) := by
  have hsep : (pre 58 init ++ p).any (fun b => b == 43 || b == 39) = true ↔
      (43 ∈ pre 58 init ++ p ∨ 39 ∈ pre 58 init ++ p) := by
    simp only [List.any_eq_true, Bool.or_eq_true, beq_iff_eq]
    constructor
    · rintro ⟨b, hb, rfl | rfl⟩
      · exact Or.inl hb
      · exact Or.inr hb
    · rintro (h | h)
      · exact ⟨43, h, Or.inl rfl⟩
      · exact ⟨39, h, Or.inr rfl⟩
  rw [List.length_append] at hl
  obtain ⟨ts, h1, h2⟩ := clean_pre hv (d := 58) (Or.inr (Or.inr rfl)) (pos := 0) (by omega)
  split
  · rename_i hs
    have hterm : terminated (pre 58 init ++ p) = pre 58 init ++ p := by
      unfold terminated; rw [if_pos (hsep.2 hs)]
    split
    · rename_i hpn
      subst hpn
      rw [List.append_nil] at hterm ⊢
      rw [extract_clean (ts := ts) (by rw [hterm]; exact h1), h2, extractLoop_eof]
      simp
    · rename_i hpn
      have hval : Spec.Value p := hp.resolve_left hpn
      unfold extractElements
      rw [lex_eq_scan, hterm, h1.scan_append, Nat.zero_add, scan_eq]
      cases hb : lexOne (pre 58 init).length p with
      | tok t n => exact absurd hb (lexOne_prefix hval (x := []) (by simp) (by omega))
      | stop n => exact absurd hb (lexOne_prefix_stop hval (x := []) (by simp) hpn)
      | err msg =>
        simp only [Drain.prepend_done]
        rw [extractLoop_err ⟨_, List.mem_append_right _ (List.mem_singleton.2 rfl), rfl⟩]
      | panic => exact absurd hb (lexOne_value_no_panic hval (by omega))
  · rename_i hs
    have hterm : terminated (pre 58 init ++ p) = (pre 58 init ++ p) ++ [43] := by
      unfold terminated; rw [if_neg (fun h => hs (hsep.1 h))]
    obtain ⟨us, h3, h4⟩ := clean_part hp (d := 43) (Or.inl rfl) (pos := 0 + (pre 58 init).length) (by omega)
    have hc := h1.append h3
    rw [extract_clean (ts := ts ++ us) (by rw [hterm, List.append_assoc]; exact hc)]
    rw [List.append_assoc, h2, h4, extractLoop_eof]
    simp

/-- An element of a segment is a sequence of parts. -/
theorem field_parts {f : Bytes} (h : Segment.Spec.Field f) :
    ∃ init p, f = pre 58 init ++ p ∧ (∀ q ∈ init, Part q) ∧ Part p := by
  induction h with
  | nil => exact ⟨[], [], rfl, by simp, Or.inl rfl⟩
  | one hv => exact ⟨[], _, rfl, by simp, Or.inr hv⟩
  | none_more _ ih =>
    obtain ⟨init, p, rfl, h1, h2⟩ := ih
    refine ⟨[] :: init, p, by simp [pre_cons], ?_, h2⟩
    intro q hq
    simp only [List.mem_cons] at hq
    rcases hq with rfl | hq
    · exact Or.inl rfl
    · exact h1 q hq
  | @more v f hv _ ih =>
    obtain ⟨init, p, rfl, h1, h2⟩ := ih
    refine ⟨v :: init, p, by simp [pre_cons], ?_, h2⟩
    intro q hq
    simp only [List.mem_cons] at hq
    rcases hq with rfl | hq
    · exact Or.inr hv
    · exact h1 q hq

/-- Extracting the parts of an element of a segment does not panic. -/
theorem extract_field_no_panic {f : Bytes} (h : Segment.Spec.Field f) (hl : f.length < 2 ^ 63) :
    extractElements f ≠ .panic := by
  obtain ⟨init, p, rfl, h1, h2⟩ := field_parts h
  rw [extract_parts h1 h2 hl]
  split
  · split <;> simp
  · simp

end Verif.Element

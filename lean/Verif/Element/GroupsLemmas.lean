import Verif.Element.Groups
import Verif.Element.PartsLemmas
import Verif.Element.MoreLemmas
import Mathlib.Tactic.Tauto

/-
Lemmas about compound data elements: what extraction can return, and where escaped
text contains or ends in delimiters.
-/

namespace Verif.Element

open GoLib Token Token.Spec Spec

/-! ## What extraction returns -/

theorem extractLoop_parts {N : Nat} : ∀ (ts : List Token) (cur : Bytes) (acc es : List Bytes),
    (∀ t ∈ ts, t.isSyntaxSymbol = true ∨ (Value t.val ∧ t.val.length ≤ N) ∨ t.typ = .error) →
    (∀ before t after, ts = before ++ t :: after → t.isSyntaxSymbol = false → t.typ ≠ .error →
      ∃ s after', after = s :: after' ∧ s.isSyntaxSymbol = true) →
    Part cur → cur.length ≤ N → (cur ≠ [] → ∃ s r, ts = s :: r ∧ s.isSyntaxSymbol = true) →
    (∀ e ∈ acc, Part e ∧ e.length ≤ N) → ∀ last : Token, last.isSyntaxSymbol = false →
    extractLoop (ts ++ [last]) cur acc = .ok es → ∀ e ∈ es, Part e ∧ e.length ≤ N := by
  intro ts
  induction ts with
  | nil =>
    intro cur acc es _ _ _ _ _ hacc last hl he
    rw [List.nil_append, extractLoop] at he
    split at he
    · simp at he
    · rw [if_neg (by rw [hl]; simp), extractLoop] at he
      cases he
      exact hacc
  | cons t ts ih =>
    intro cur acc es hk hf hc hN hs hacc last hl he
    rw [List.cons_append, extractLoop] at he
    split at he
    · simp at he
    · rename_i hne
      have hk' : ∀ t ∈ ts, t.isSyntaxSymbol = true ∨ (Value t.val ∧ t.val.length ≤ N) ∨ t.typ = .error :=
        fun u hu => hk u (by simp [hu])
      have hf' : ∀ before t after, ts = before ++ t :: after → t.isSyntaxSymbol = false → t.typ ≠ .error →
          ∃ s after', after = s :: after' ∧ s.isSyntaxSymbol = true := by
        intro before u after hu
        exact hf (t :: before) u after (by rw [hu]; rfl)
      split at he
      · refine ih [] (acc ++ [cur]) es hk' hf' (Or.inl rfl) (by simp) (fun h => absurd rfl h) ?_ last hl he
        intro e hm
        simp only [List.mem_append, List.mem_singleton] at hm
        rcases hm with hm | rfl
        · exact hacc e hm
        · exact ⟨hc, hN⟩
      · rename_i hsym
        have hsym : t.isSyntaxSymbol = false := by simpa using hsym
        have hcur : cur = [] := by
          by_contra hcur
          obtain ⟨s, r, h1, h2⟩ := hs hcur
          cases h1
          rw [hsym] at h2
          simp at h2
        subst hcur
        rw [List.nil_append] at he
        have hv : Value t.val ∧ t.val.length ≤ N := by
          rcases hk t (by simp) with h | h | h
          · rw [hsym] at h; simp at h
          · exact h
          · exact absurd h hne
        exact ih t.val acc es hk' hf' (Or.inr hv.1) hv.2 (fun _ => by
          obtain ⟨s, r, h1, h2⟩ := hf [] t ts rfl hsym hne
          exact ⟨s, r, h1, h2⟩) hacc last hl he

theorem length_le_values {ts : List Token} {t : Token} (h : t ∈ ts) : t.val.length ≤ (values ts).length := by
  induction ts with
  | nil => simp at h
  | cons u ts ih =>
    simp only [List.mem_cons] at h
    rcases h with rfl | h
    · simp [values]
    · have := ih h
      simp only [values, List.map_cons, List.flatten_cons, List.length_append] at this ⊢
      omega

/-- Everything extraction returns is empty or one value of the wire. -/
theorem extract_sound {b : Bytes} {es : List Bytes} (h : extractElements b = .ok es) :
    ∀ e ∈ es, Part e ∧ e.length ≤ b.length + 1 := by
  unfold extractElements at h
  cases hl : lex (terminated b) with
  | panic ts => rw [hl] at h; simp at h
  | blocked ts => rw [hl] at h; simp at h
  | timeout ts => rw [hl] at h; simp at h
  | done ts =>
    rw [hl] at h
    simp only at h
    obtain ⟨a, c, us, last, he, hc, rfl, hp, hend⟩ := lex_done_inv hl
    have hlast : last.isSyntaxSymbol = false := by
      rcases hend with ⟨_, h, _⟩ | ⟨_, h, _⟩ | ⟨h, _⟩ <;> simp [Token.Token.isSyntaxSymbol, h]
    have hlen : a.length ≤ b.length + 1 := by
      have := congrArg List.length he
      unfold terminated at this
      split at this <;> simp at this <;> omega
    refine extractLoop_parts us [] [] es ?_ ?_ (Or.inl rfl) (by simp) (fun h => absurd rfl h) (by simp) last hlast h
    · intro t ht
      rcases hc.mem t ht with ⟨d, hd, hv, htt⟩ | hk
      · left
        rcases hd with rfl | rfl | rfl <;> simp [Token.Token.isSyntaxSymbol, htt, sepTyp]
      · right; left
        refine ⟨value_of_kind hk, ?_⟩
        have := length_le_values ht
        rw [hc.values_eq] at this
        omega
    · intro before t after hu hs _
      exact hc.followed before t after hu hs

/-- A part holds at most one element. -/
theorem extract_part {p : Bytes} (hp : Part p) (hl : p.length < 2 ^ 63) :
    extractElements p = if 43 ∈ p ∨ 39 ∈ p then .err else .ok [p] := by
  have := extract_parts (init := []) (p := p) (by simp) hp (by simpa [pre] using hl)
  rw [pre_nil, List.nil_append, List.nil_append] at this
  rw [this]
  by_cases h : 43 ∈ p ∨ 39 ∈ p
  · rw [if_pos h, if_pos h, if_neg]
    rintro rfl
    simp at h
  · rw [if_neg h, if_neg h]

/-! ## Delimiters in escaped text -/

/-- Text of a field that can be put on the wire as one value (or nothing). -/
def Sendable (s : Str) : Prop := Latin1 s ∧ '\x00' ∉ s ∧ ¬ LikeMalformedFloat s

theorem part_of_sendable {s : Str} (h : Sendable s) : Part (enc (escape s)) := by
  by_cases hs : s = []
  · left; simp [hs, escape, enc]
  · right; exact (text_value_iff h.1).2 ⟨hs, h.2⟩

theorem marshalText_ok {s : Str} (h : Latin1 s) : marshalText s = .ok (enc (escape s)) :=
  toISO_ok (escape_latin1.2 h)

theorem escape_last (s : Str) : (escape s).getLast? = s.getLast? := by
  induction s with
  | nil => rfl
  | cons c s ih =>
    rw [escape_cons]
    cases s with
    | nil => split <;> simp [escape]
    | cons d s =>
      have hne : escape (d :: s) ≠ [] := by rw [escape_cons]; split <;> simp
      rw [List.getLast?_cons_cons, ← ih, List.getLast?_append]
      cases he : (escape (d :: s)).getLast? with
      | none => exact absurd (List.getLast?_eq_none_iff.1 he) hne
      | some x => rfl

theorem enc_escape_last {s : Str} (h : Latin1 s) :
    (enc (escape s)).getLast? = some 58 ↔ s.getLast? = some ':' := by
  unfold enc
  rw [List.getLast?_map, escape_last]
  cases hs : s.getLast? with
  | none => simp
  | some c =>
    have hc := h c (List.mem_of_getLast? hs)
    simp only [Option.map_some, Option.some.injEq]
    rw [enc_eq_iff hc]
    constructor
    · intro he; exact char_ext he
    · rintro rfl; rfl

theorem escape_eq_self {s : Str} : escape s = s ↔ ∀ c ∈ s, ¬ Special c := by
  have hlen : ∀ s : Str, s.length ≤ (escape s).length := by
    intro s
    induction s with
    | nil => simp
    | cons c s ih => rw [escape_cons]; split <;> simp <;> omega
  induction s with
  | nil => simp [escape]
  | cons c s ih =>
    rw [escape_cons]
    by_cases hc : Special c
    · rw [if_pos ((special_iff c).2 hc)]
      constructor
      · intro h
        have := congrArg List.length h
        have := hlen s
        simp at *
        omega
      · intro h; exact absurd hc (h c (by simp))
    · rw [if_neg (fun h => hc ((special_iff c).1 h))]
      simp [ih, hc]

end Verif.Element

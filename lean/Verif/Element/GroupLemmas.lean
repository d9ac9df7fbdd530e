import Verif.Element.Lemmas
import Mathlib.Tactic.ByContra

/-
Group marshalling and extraction.
-/

namespace Verif.Element

open GoLib Spec Verif.Token.Spec Token

/-- Parts, each followed by the separator. -/
def pre (sep : Byte) (ps : List Bytes) : Bytes := ps.flatMap fun p => p ++ [sep]

theorem pre_nil (sep : Byte) : pre sep [] = [] := rfl
theorem pre_cons (sep : Byte) (p : Bytes) (ps : List Bytes) : pre sep (p :: ps) = p ++ sep :: pre sep ps := by
  simp [pre]
theorem pre_append (sep : Byte) (a b : List Bytes) : pre sep (a ++ b) = pre sep a ++ pre sep b := by
  simp [pre]

theorem join_snoc (sep : Byte) (init : List Bytes) (p : Bytes) : join sep (init ++ [p]) = pre sep init ++ p := by
  induction init with
  | nil => simp [join, pre]
  | cons q init ih =>
    rw [List.cons_append, join_cons _ _ (by simp), ih, pre_cons]
    simp

theorem join_trailing (sep : Byte) (out : List Bytes) (p : Bytes) (k : Nat) :
    join sep (out ++ [p] ++ List.replicate k []) = pre sep out ++ p ++ List.replicate k sep := by
  induction k with
  | zero => simp [join_snoc]
  | succ k ih =>
    have e : out ++ [p] ++ List.replicate (k + 1) [] = (out ++ [p] ++ List.replicate k []) ++ [[]] := by
      rw [List.replicate_succ']; simp
    rw [e, join_snoc, List.append_nil, pre_append]
    have : join sep (out ++ [p] ++ List.replicate k []) ++ [sep] = pre sep (out ++ [p] ++ List.replicate k []) := by
      rcases List.eq_nil_or_concat (out ++ [p] ++ List.replicate k []) with h | ⟨a, b, h⟩
      · simp at h
      · rw [List.concat_eq_append] at h
        rw [h, join_snoc, pre_append]
        simp [pre]
    rw [← pre_append, ← this, ih, List.replicate_succ']
    simp

theorem trimRight_prefix {c : Byte} {p : Bytes} (x : Bytes) (h : trimRight c p ≠ []) :
    trimRight c (x ++ p) = x ++ trimRight c p := by
  obtain ⟨k, hk⟩ := trimRight_spec c p
  have h1 : x ++ p = (x ++ trimRight c p) ++ List.replicate k c := by
    conv => lhs; rw [hk]
    simp
  rw [h1, trimRight_replicate, trimRight_of_last]
  rw [List.getLast?_append]
  have := trimRight_getLast? c p
  cases hl : (trimRight c p).getLast? with
  | none => simp at hl; exact absurd hl h
  | some d => rw [hl] at this; simpa using this

/-- Joined parts after trimming: everything up to the last non-empty part, which
is itself trimmed. -/
theorem trim_join {c : Byte} {out : List Bytes} {p : Bytes} {k : Nat} (h : trimRight c p ≠ []) :
    trimRight c (join c (out ++ [p] ++ List.replicate k [])) = pre c out ++ trimRight c p := by
  rw [join_trailing, trimRight_replicate, trimRight_prefix _ h]

/-- The end of a value is not all separators. -/
theorem trimRight_value {c : Byte} {p : Bytes} (hc : Delim c) (h : Value p) : trimRight c p ≠ [] := by
  intro he
  obtain ⟨k, hk⟩ := trimRight_spec c p
  rw [he, List.nil_append] at hk
  cases k with
  | zero => exact value_ne_nil h hk
  | succ k =>
    rw [List.replicate_succ] at hk
    exact (value_head h c (by rw [hk]; rfl)).1 hc

/-- A list of parts with a non-empty one. -/
theorem dropTrailing_exists (ps : List Bytes) (h : ∃ p ∈ ps, p ≠ []) :
    ∃ out p k, p ≠ [] ∧ ps = out ++ [p] ++ List.replicate k [] := by
  induction ps with
  | nil => obtain ⟨p, hp, _⟩ := h; simp at hp
  | cons q ps ih =>
    by_cases hx : ∃ p ∈ ps, p ≠ []
    · obtain ⟨out, p, k, hp, he⟩ := ih hx
      exact ⟨q :: out, p, k, hp, by simp [he]⟩
    · obtain ⟨p, hp, hne⟩ := h
      simp only [List.mem_cons] at hp
      rcases hp with rfl | hp
      · refine ⟨[], p, ps.length, hne, ?_⟩
        have : ps = List.replicate ps.length [] := by
          apply List.eq_replicate_of_mem
          intro b hb
          by_contra hb2
          exact hx ⟨b, hb, hb2⟩
        simp only [List.nil_append, List.cons_append, List.cons.injEq, true_and]
        exact this
      · exact absurd ⟨p, hp, hne⟩ hx

theorem dropTrailing_iff {ps out' : List Bytes} {out : List Bytes} {p : Bytes} {k : Nat} (hp : p ≠ [])
    (he : ps = out ++ [p] ++ List.replicate k []) : DropTrailing ps out' ↔ out' = out ++ [p] := by
  constructor
  · rintro ⟨k', he', hl⟩
    rw [he] at he'
    clear he
    induction k generalizing k' with
    | zero =>
      cases k' with
      | zero => simpa using he'.symm
      | succ k' =>
        rw [List.replicate_succ', ← List.append_assoc, List.replicate_zero, List.append_nil] at he'
        have := List.append_inj' he' rfl
        simp only [List.cons.injEq, and_true] at this
        exact absurd this.2 hp
    | succ k ih =>
      cases k' with
      | zero =>
        rw [List.replicate_succ', ← List.append_assoc] at he'
        simp only [List.replicate_zero, List.append_nil] at he'
        rw [← he', List.getLast?_append] at hl
        simp at hl
      | succ k' =>
        rw [List.replicate_succ', List.replicate_succ', ← List.append_assoc, ← List.append_assoc] at he'
        have := List.append_inj' he' rfl
        exact ih k' this.1
  · rintro rfl
    exact ⟨k, he, by simpa using hp⟩

/-! ## Tokens of parts -/

theorem extractLoop_sep {d : Byte} (hd : Delim d) (pos : Nat) (more : List Token) (cur : Bytes) (acc : List Bytes) :
    extractLoop (⟨sepTyp d, [d], pos⟩ :: more) cur acc = extractLoop more [] (acc ++ [cur]) := by
  rcases hd with rfl | rfl | rfl <;> simp [extractLoop, sepTyp, Token.Token.isSyntaxSymbol]

theorem kind_not_sep {pos : Nat} {t : Typ} {v : Bytes} (h : Kind pos t v) (p : Nat) :
    (⟨t, v, p⟩ : Token).isSyntaxSymbol = false ∧ t ≠ .error ∧ t ≠ .eof := by
  cases t <;> simp_all [Kind, Token.Token.isSyntaxSymbol]

theorem extractLoop_value {pos p : Nat} {t : Typ} {v : Bytes} (h : Kind pos t v) (more : List Token)
    (cur : Bytes) (acc : List Bytes) :
    extractLoop (⟨t, v, p⟩ :: more) cur acc = extractLoop more (cur ++ v) acc := by
  have := kind_not_sep h p
  rw [extractLoop, if_neg this.2.1, if_neg (by rw [this.1]; simp)]

/-- A part: an element that is absent (or empty) or a value. -/
def Part (p : Bytes) : Prop := p = [] ∨ Value p

/-- A part followed by a delimiter. -/
theorem clean_part {p : Bytes} (hp : Part p) {d : Byte} (hd : Delim d) {pos : Nat} (hl : pos + p.length < 2 ^ 63) :
    ∃ ts, Clean pos (p ++ [d]) ts ∧ (∀ more cur acc,
      extractLoop (ts ++ more) cur acc = extractLoop more [] (acc ++ [cur ++ p])) := by
  rcases hp with rfl | hp
  · refine ⟨_, clean_delim hd, ?_⟩
    intro more cur acc
    rw [List.singleton_append, extractLoop_sep hd, List.append_nil]
  · obtain ⟨t, hk⟩ := kind_of_value hp hl
    refine ⟨_, clean_value hk hd, ?_⟩
    intro more cur acc
    rw [List.cons_append, List.singleton_append, extractLoop_value hk, extractLoop_sep hd]

theorem clean_pre {ps : List Bytes} (hp : ∀ p ∈ ps, Part p) {d : Byte} (hd : Delim d) :
    ∀ {pos : Nat}, pos + (pre d ps).length ≤ 2 ^ 63 →
    ∃ ts, Clean pos (pre d ps) ts ∧ (∀ more acc,
      extractLoop (ts ++ more) [] acc = extractLoop more [] (acc ++ ps)) := by
  induction ps with
  | nil => intro pos _; exact ⟨[], .nil _, by simp⟩
  | cons p ps ih =>
    intro pos hl
    rw [pre_cons] at hl
    simp only [List.length_append, List.length_cons] at hl
    obtain ⟨ts, h1, h2⟩ := clean_part (hp p (by simp)) hd (pos := pos) (by omega)
    obtain ⟨us, h3, h4⟩ := ih (fun q hq => hp q (by simp [hq])) (pos := pos + (p ++ [d]).length) (by simp; omega)
    refine ⟨ts ++ us, ?_, ?_⟩
    · have := h1.append h3
      rw [pre_cons]
      simpa using this
    · intro more acc
      rw [List.append_assoc, h2, h4]
      simp

/-- Extraction of completely tokenised input. -/
theorem extract_clean {m : Bytes} {ts : List Token} (h : Clean 0 (terminated m) ts) :
    extractElements m = extractLoop (ts ++ [⟨.eof, [], (terminated m).length⟩]) [] [] := by
  unfold extractElements
  rw [lex_eq_scan, h.scan_eq_done]
  simp

theorem extractLoop_eof (p : Nat) (cur : Bytes) (acc : List Bytes) :
    extractLoop [⟨.eof, [], p⟩] cur acc = .ok acc := by
  simp [extractLoop, Token.Token.isSyntaxSymbol]

theorem extractLoop_err {ts : List Token} (h : ∃ t ∈ ts, t.typ = .error) (cur : Bytes) (acc : List Bytes) :
    extractLoop ts cur acc = .err := by
  induction ts generalizing cur acc with
  | nil => simp at h
  | cons t ts ih =>
    rw [extractLoop]
    split
    · rfl
    · rename_i hne
      obtain ⟨u, hu, he⟩ := h
      simp only [List.mem_cons] at hu
      rcases hu with rfl | hu
      · exact absurd he hne
      · split
        · exact ih ⟨u, hu, he⟩ _ _
        · exact ih ⟨u, hu, he⟩ _ _

/-- Extraction fails if a clean prefix is followed by something that is not a
token. -/
theorem extract_fail {m a b : Bytes} {ts : List Token} (he : terminated m = a ++ b) (h : Clean 0 a ts)
    (h1 : ∀ t n, lexOne a.length b ≠ .tok t n) (h2 : ∀ n, lexOne a.length b ≠ .stop n) (out : List Bytes) :
    extractElements m ≠ .ok out := by
  unfold extractElements
  rw [lex_eq_scan, he, h.scan_append, Nat.zero_add, scan_eq]
  cases hb : lexOne a.length b with
  | tok t n => exact absurd hb (h1 t n)
  | stop n => exact absurd hb (h2 n)
  | err msg =>
    simp only [Drain.prepend_done]
    rw [extractLoop_err ⟨_, List.mem_append_right _ (List.mem_singleton.2 rfl), rfl⟩]
    simp
  | panic => simp [Drain.prepend_panic]

/-- Extraction of a marshalled group whose last part survives the trimming. -/
theorem extract_group {out : List Bytes} {p : Bytes} (hv : ∀ q ∈ out, Part q) (hp : Value p)
    (hl : (pre 58 (out ++ [p])).length < 2 ^ 63)
    (hs : ∀ q ∈ out ++ [p], 43 ∉ q ∧ 39 ∉ q) : extractElements (pre 58 out ++ p) = .ok (out ++ [p]) := by
  have hterm : terminated (pre 58 out ++ p) = (pre 58 out ++ p) ++ [43] := by
    unfold terminated
    rw [if_neg]
    simp only [List.any_eq_true, not_exists, not_and, Bool.or_eq_true, beq_iff_eq]
    intro b hb
    simp only [pre, List.mem_append, List.mem_flatMap, List.mem_cons, List.not_mem_nil, or_false] at hb
    rintro (rfl | rfl)
    · rcases hb with ⟨q, hq, hb | hb⟩ | hb
      · exact (hs q (by simp [hq])).1 hb
      · simp at hb
      · exact (hs p (by simp)).1 hb
    · rcases hb with ⟨q, hq, hb | hb⟩ | hb
      · exact (hs q (by simp [hq])).2 hb
      · simp at hb
      · exact (hs p (by simp)).2 hb
  rw [pre_append] at hl
  simp only [pre_cons, pre_nil, List.length_append, List.length_cons, List.length_nil] at hl
  obtain ⟨ts, h1, h2⟩ := clean_pre hv (d := 58) (Or.inr (Or.inr rfl)) (pos := 0) (by omega)
  obtain ⟨us, h3, h4⟩ := clean_part (Or.inr hp) (d := 43) (Or.inl rfl) (pos := 0 + (pre 58 out).length) (by omega)
  have hc := h1.append h3
  rw [extract_clean (ts := ts ++ us) (by rw [hterm, List.append_assoc]; exact hc)]
  rw [List.append_assoc, h2, h4, extractLoop_eof]
  simp

/-- A `+` or `'` in a part makes extraction fail. -/
theorem extract_group_sep {out : List Bytes} {p : Bytes} (hv : ∀ q ∈ out, Part q) (hp : Value p)
    (hl : (pre 58 (out ++ [p])).length < 2 ^ 63)
    {p' x : Bytes} (he : p = p' ++ x) (hne : p' ≠ []) (hs' : 43 ∈ pre 58 out ++ p' ∨ 39 ∈ pre 58 out ++ p')
    (res : List Bytes) :
    extractElements (pre 58 out ++ p') ≠ .ok res := by
  have hterm : terminated (pre 58 out ++ p') = pre 58 out ++ p' := by
    unfold terminated
    rw [if_pos]
    simp only [List.any_eq_true, Bool.or_eq_true, beq_iff_eq]
    rcases hs' with h | h
    · exact ⟨43, h, Or.inl rfl⟩
    · exact ⟨39, h, Or.inr rfl⟩
  rw [pre_append] at hl
  simp only [pre_cons, pre_nil, List.length_append, List.length_cons, List.length_nil] at hl
  obtain ⟨ts, h1, h2⟩ := clean_pre hv (d := 58) (Or.inr (Or.inr rfl)) (pos := 0) (by omega)
  exact extract_fail hterm h1 (fun t n => lexOne_prefix hp he (by omega)) (fun n => lexOne_prefix_stop hp he hne) res

/-- A last part that ends in `:` is cut, and extraction fails. -/
theorem extract_group_cut {out : List Bytes} {p u : Bytes} {k : Nat} (hv : ∀ q ∈ out, Part q) (hp : Value p)
    (hl : (pre 58 (out ++ [p])).length < 2 ^ 63) (he : p = u ++ List.replicate (k + 1) 58) (hne : u ≠ [])
    (res : List Bytes) : extractElements (pre 58 out ++ u) ≠ .ok res := by
  rw [pre_append] at hl
  simp only [pre_cons, pre_nil, List.length_append, List.length_cons, List.length_nil] at hl
  obtain ⟨ts, h1, h2⟩ := clean_pre hv (d := 58) (Or.inr (Or.inr rfl)) (pos := 0) (by omega)
  by_cases hs : (pre 58 out ++ u).any (fun b => b == 43 || b == 39) = true
  · have hterm : terminated (pre 58 out ++ u) = pre 58 out ++ u := by
      unfold terminated; rw [if_pos hs]
    exact extract_fail hterm h1 (fun t n => lexOne_prefix hp he (by omega)) (fun n => lexOne_prefix_stop hp he hne) res
  · have hterm : terminated (pre 58 out ++ u) = pre 58 out ++ (u ++ [43]) := by
      unfold terminated; rw [if_neg hs]; simp
    refine extract_fail hterm h1 ?_ ?_ res
    · intro t n h
      rcases kind_of_lexOne h with ⟨d, r, h3, hd, _⟩ | ⟨v, d, r, h3, hd, _, hk⟩
      · cases u with
        | nil => exact hne rfl
        | cons a u =>
          simp at h3
          exact (value_head hp a (by simp [he])).1 (h3.1 ▸ hd)
      · rcases List.eq_nil_or_concat r with rfl | ⟨r', x, rfl⟩
        · have := List.append_inj' h3 rfl
          obtain ⟨rfl, _⟩ := this
          exact not_kind_cut (Or.inr (Or.inr rfl)) hp he hk
        · have h4 : u ++ [43] = (v ++ d :: r') ++ [x] := by rw [h3]; simp
          have := List.append_inj' h4 rfl
          have h5 : lexOne (pre 58 out).length u = .tok t v.length := by
            rw [this.1]; exact lexOne_of_kind hk hd r'
          exact lexOne_prefix hp he (by omega) h5
    · intro n h
      have := lexOne_stop h
      rcases this with ⟨h3, _⟩ | ⟨r, h3, _⟩
      · simp at h3
      · cases u with
        | nil => exact hne rfl
        | cons a u =>
          simp at h3
          exact (value_head hp a (by simp [he])).2 h3.1

end Verif.Element

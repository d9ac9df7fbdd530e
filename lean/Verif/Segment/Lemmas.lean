import Verif.Segment.Model
import Verif.Segment.Spec
import Verif.Element.Props

/-
Tokens of marshalled segments.
-/

namespace Verif.Segment

open GoLib Element Element.Spec Segment.Spec Verif.Token.Spec Token

/-- Tokens inside an element of a segment. -/
def Inner (t : Token) : Prop :=
  t.typ ≠ .error ∧ t.typ ≠ .eof ∧ t.typ ≠ .segmentEndMarker ∧ t.typ ≠ .dataElementSeparator

theorem inner_of_kind {pos p : Nat} {t : Typ} {v : Bytes} (h : Kind pos t v) : Inner ⟨t, v, p⟩ := by
  cases t <;> simp_all [Kind, Inner]

theorem inner_colon (p : Nat) : Inner ⟨sepTyp 58, [58], p⟩ := by simp [Inner, sepTyp]

theorem values_append (a b : List Token) : values (a ++ b) = values a ++ values b := by simp [values]

theorem clean_field {f : Bytes} (hf : Field f) {d : Byte} (hd : Delim d) :
    ∀ {pos : Nat}, pos + f.length < 2 ^ 63 →
    ∃ ts, Clean pos (f ++ [d]) (ts ++ [⟨sepTyp d, [d], pos + f.length⟩]) ∧ (∀ t ∈ ts, Inner t) ∧ values ts = f := by
  induction hf with
  | nil => intro pos _; exact ⟨[], by simpa using clean_delim hd, by simp, rfl⟩
  | one hv =>
    intro pos hl
    obtain ⟨t, hk⟩ := kind_of_value hv hl
    exact ⟨[⟨t, _, pos⟩], clean_value hk hd, by simp; exact inner_of_kind hk, by simp [values]⟩
  | @none_more f _ ih =>
    intro pos hl
    simp only [List.length_cons] at hl
    obtain ⟨ts, h1, h2, h3⟩ := ih (pos := pos + 1) (by omega)
    refine ⟨⟨sepTyp 58, [58], pos⟩ :: ts, ?_, ?_, ?_⟩
    · have := (clean_delim (pos := pos) (d := 58) (Or.inr (Or.inr rfl))).append h1
      simp only [List.cons_append, List.nil_append, List.length_cons] at this ⊢
      have e : pos + (f.length + 1) = pos + 1 + f.length := by omega
      rw [e]; exact this
    · intro t ht
      simp only [List.mem_cons] at ht
      rcases ht with rfl | ht
      · exact inner_colon _
      · exact h2 t ht
    · simp only [values, List.map_cons, List.flatten_cons, List.cons_append, List.nil_append, List.cons.injEq, true_and]
      exact h3
  | @more p f hv _ ih =>
    intro pos hl
    simp only [List.length_append, List.length_cons] at hl
    obtain ⟨t, hk⟩ := kind_of_value hv (pos := pos) (by omega)
    obtain ⟨ts, h1, h2, h3⟩ := ih (pos := pos + (p ++ [58]).length) (by simp; omega)
    refine ⟨⟨t, p, pos⟩ :: ⟨sepTyp 58, [58], pos + p.length⟩ :: ts, ?_, ?_, ?_⟩
    · have := (clean_value hk (d := 58) (Or.inr (Or.inr rfl))).append h1
      simp only [List.cons_append, List.nil_append, List.length_cons, List.length_append, List.length_nil,
        List.append_assoc] at this ⊢
      have e : pos + (p.length + (f.length + 1)) = pos + (p.length + (0 + 1)) + f.length := by omega
      rw [e]; exact this
    · intro x hx
      simp only [List.mem_cons] at hx
      rcases hx with rfl | rfl | hx
      · exact inner_of_kind hk
      · exact inner_colon _
      · exact h2 x hx
    · simp only [values, List.map_cons, List.flatten_cons, List.cons_append, List.nil_append]
      rw [show (List.map (fun x => x.val) ts).flatten = f from h3]

theorem extractLoop_inner {ts : List Token} (h : ∀ t ∈ ts, Inner t) (more : List Token) (cur : Bytes) (acc : List Bytes) :
    extractLoop (ts ++ more) cur acc = extractLoop more (cur ++ values ts) acc := by
  induction ts generalizing cur with
  | nil => simp [values]
  | cons t ts ih =>
    obtain ⟨h1, h2, h3, h4⟩ := h t (by simp)
    rw [List.cons_append, extractLoop, if_neg h1, if_neg (by simp [h3, h4]), ih fun u hu => h u (by simp [hu])]
    simp [values]

theorem extractLoop_plus (p : Nat) (more : List Token) (cur : Bytes) (acc : List Bytes) :
    extractLoop (⟨sepTyp 43, [43], p⟩ :: more) cur acc = extractLoop more [] (acc ++ [cur]) := by
  simp [extractLoop, sepTyp]

theorem extractLoop_end {cur : Bytes} (h : cur ≠ []) (p : Nat) (more : List Token) (acc : List Bytes) :
    extractLoop (⟨sepTyp 39, [39], p⟩ :: more) cur acc = extractLoop more [] (acc ++ [cur]) := by
  simp [extractLoop, sepTyp, h]

theorem extractLoop_eof (v : Bytes) (p : Nat) (cur : Bytes) (acc : List Bytes) :
    extractLoop [⟨.eof, v, p⟩] cur acc = .ok acc := by simp [extractLoop]

theorem extractLoop_err {ts : List Token} (h : ∃ t ∈ ts, t.typ = .error) (cur : Bytes) (acc : List Bytes) :
    extractLoop ts cur acc = .err := by
  induction ts generalizing cur acc with
  | nil => simp at h
  | cons t ts ih =>
    rw [extractLoop]
    split
    · rfl
    · rename_i hne
      obtain ⟨u, hu, he⟩ := h
      simp only [List.mem_cons] at hu
      rcases hu with rfl | hu
      · exact absurd he hne
      · split
        · exact ih ⟨u, hu, he⟩ _ _
        · exact ih ⟨u, hu, he⟩ _ _

/-- Fields, each followed by `+`. -/
theorem clean_fields {fs : List Bytes} (hf : ∀ f ∈ fs, Field f) :
    ∀ {pos : Nat}, pos + (pre 43 fs).length ≤ 2 ^ 63 →
    ∃ ts, Clean pos (pre 43 fs) ts ∧ (∀ t ∈ ts, t.typ ≠ .segmentEndMarker) ∧
      (∀ more acc, extractLoop (ts ++ more) [] acc = extractLoop more [] (acc ++ fs)) := by
  induction fs with
  | nil => intro pos _; exact ⟨[], .nil _, by simp, by simp⟩
  | cons f fs ih =>
    intro pos hl
    rw [pre_cons] at hl
    simp only [List.length_append, List.length_cons] at hl
    obtain ⟨ts, h1, h2, h3⟩ := clean_field (hf f (by simp)) (d := 43) (Or.inl rfl) (pos := pos) (by omega)
    obtain ⟨us, h4, h5, h6⟩ := ih (fun q hq => hf q (by simp [hq])) (pos := pos + (f ++ [43]).length) (by simp; omega)
    refine ⟨ts ++ [⟨sepTyp 43, [43], pos + f.length⟩] ++ us, ?_, ?_, ?_⟩
    · have := h1.append h4
      rw [pre_cons]
      simpa using this
    · intro t ht
      simp only [List.mem_append, List.mem_singleton] at ht
      rcases ht with (ht | rfl) | ht
      · exact (h2 t ht).2.2.1
      · simp [sepTyp]
      · exact h5 t ht
    · intro more acc
      rw [List.append_assoc, List.append_assoc, extractLoop_inner h2, List.singleton_append, extractLoop_plus, h6, h3]
      simp

theorem field_head {f : Bytes} (h : Field f) : f.head? ≠ some 43 ∧ f.head? ≠ some 39 := by
  have v : ∀ {p : Bytes}, Value p → p.head? ≠ some 43 ∧ p.head? ≠ some 39 := fun hv =>
    ⟨fun hh => (value_head hv 43 hh).1 (Or.inl rfl), fun hh => (value_head hv 39 hh).1 (Or.inr (Or.inl rfl))⟩
  cases h with
  | nil => simp
  | one hv => exact v hv
  | none_more _ => simp
  | @more p f hv hf =>
    have := v hv
    have hne := value_ne_nil hv
    cases p with
    | nil => exact absurd rfl hne
    | cons a p => simpa using this

theorem trimRight_field {p : Bytes} (h : Field p) (hne : p ≠ []) : trimRight 43 p ≠ [] := by
  intro he
  obtain ⟨k, hk⟩ := trimRight_spec 43 p
  rw [he, List.nil_append] at hk
  cases k with
  | zero => exact hne hk
  | succ k =>
    rw [List.replicate_succ] at hk
    exact (field_head h).1 (by rw [hk]; rfl)

/-- The value that loses its end when a field is cut. -/
theorem field_cut {p : Bytes} (hf : Field p) {k : Nat} :
    ∀ {pos : Nat} {u : Bytes}, p = u ++ List.replicate (k + 1) 43 → pos + p.length < 2 ^ 63 →
    ∃ a u' v ts, u = a ++ u' ∧ Clean pos a ts ∧ Value v ∧ v = u' ++ List.replicate (k + 1) 43 ∧ u' ≠ [] := by
  induction hf with
  | nil => intro pos u he _; simp at he
  | @one p hv =>
    intro pos u he _
    refine ⟨[], u, p, [], rfl, .nil _, hv, he, ?_⟩
    rintro rfl
    rw [List.nil_append, List.replicate_succ] at he
    exact (value_head hv 43 (by rw [he]; rfl)).1 (Or.inl rfl)
  | @none_more f _ ih =>
    intro pos u he hl
    cases u with
    | nil => rw [List.nil_append, List.replicate_succ] at he; simp at he
    | cons b u =>
      simp only [List.cons_append, List.cons.injEq] at he
      obtain ⟨rfl, he⟩ := he
      simp only [List.length_cons] at hl
      obtain ⟨a, u', v, ts, h1, h2, h3⟩ := ih (pos := pos + 1) he (by omega)
      exact ⟨58 :: a, u', v, _, by simp [h1],
        (clean_delim (pos := pos) (d := 58) (Or.inr (Or.inr rfl))).append h2, h3⟩
  | @more p f hv _ ih =>
    intro pos u he hl
    simp only [List.length_append, List.length_cons] at hl
    rcases List.append_eq_append_iff.1 he with ⟨a', h1, h2⟩ | ⟨c', h1, h2⟩
    · cases a' with
      | nil => rw [List.nil_append, List.replicate_succ] at h2; simp at h2
      | cons b a' =>
        simp only [List.cons_append, List.cons.injEq] at h2
        obtain ⟨rfl, h2⟩ := h2
        obtain ⟨t, hk⟩ := kind_of_value hv (pos := pos) (by omega)
        obtain ⟨a, u', v, ts, h3, h4, h5⟩ := ih (pos := pos + (p ++ [58]).length) h2 (by simp; omega)
        exact ⟨p ++ [58] ++ a, u', v, _, by simp [h1, h3],
          (clean_value hk (d := 58) (Or.inr (Or.inr rfl))).append h4, h5⟩
    · have : (58 : Byte) ∈ List.replicate (k + 1) 43 := by rw [h2]; simp
      simp [List.mem_replicate] at this

/-- A value that lost delimiters at its end is no token before another delimiter. -/
theorem lexOne_cut {v u : Bytes} {c d : Byte} {k pos : Nat} (hc : Delim c) (hv : Value v)
    (he : v = u ++ List.replicate (k + 1) c) (hne : u ≠ []) (hp : pos + v.length < 2 ^ 63) :
    (∀ t n, lexOne pos (u ++ [d]) ≠ .tok t n) ∧ (∀ n, lexOne pos (u ++ [d]) ≠ .stop n) := by
  constructor
  · intro t n h
    rcases kind_of_lexOne h with ⟨d', r, h3, hd', _⟩ | ⟨w, d', r, h3, hd', _, hk⟩
    · cases u with
      | nil => exact hne rfl
      | cons a u =>
        simp at h3
        exact (value_head hv a (by simp [he])).1 (h3.1 ▸ hd')
    · rcases List.eq_nil_or_concat r with rfl | ⟨r', x, rfl⟩
      · have := List.append_inj' h3 rfl
        obtain ⟨rfl, _⟩ := this
        exact not_kind_cut hc hv he hk
      · have h4 : u ++ [d] = (w ++ d' :: r') ++ [x] := by rw [h3]; simp
        have := List.append_inj' h4 rfl
        have h5 : lexOne pos u = .tok t w.length := by
          rw [this.1]; exact lexOne_of_kind hk hd' r'
        exact lexOne_prefix hv he hp h5
  · intro n h
    rcases lexOne_stop h with ⟨h3, _⟩ | ⟨r, h3, _⟩
    · simp at h3
    · cases u with
      | nil => exact hne rfl
      | cons a u =>
        simp at h3
        exact (value_head hv a (by simp [he])).2 h3.1

theorem extract_fail {m a b : Bytes} {ts : List Token} (he : m = a ++ b) (h : Clean 0 a ts)
    (h1 : ∀ t n, lexOne a.length b ≠ .tok t n) (h2 : ∀ n, lexOne a.length b ≠ .stop n) (out : List Bytes) :
    extractElements m ≠ .ok out := by
  unfold extractElements
  rw [lex_eq_scan, he, h.scan_append, Nat.zero_add, scan_eq]
  cases hb : lexOne a.length b with
  | tok t n => exact absurd hb (h1 t n)
  | stop n => exact absurd hb (h2 n)
  | err msg =>
    simp only [Drain.prepend_done]
    rw [extractLoop_err ⟨_, List.mem_append_right _ (List.mem_singleton.2 rfl), rfl⟩]
    simp
  | panic => simp [Drain.prepend_panic]

/-- The tokens of a segment on the wire. -/
theorem clean_segment {init : List Bytes} {p : Bytes} (hf : ∀ f ∈ init, Field f) (hp : Field p) (hne : p ≠ [])
    {pos : Nat} (hl : pos + (pre 43 init ++ p).length < 2 ^ 63) :
    ∃ ts e, Clean pos (pre 43 init ++ p ++ [39]) (ts ++ [e]) ∧ (∀ t ∈ ts, t.typ ≠ .segmentEndMarker) ∧
      e.typ = .segmentEndMarker ∧
      (∀ more acc, extractLoop (ts ++ e :: more) [] acc = extractLoop more [] (acc ++ (init ++ [p]))) := by
  simp only [List.length_append] at hl
  obtain ⟨ts, h1, h2, h3⟩ := clean_fields hf (pos := pos) (by omega)
  obtain ⟨us, h4, h5, h6⟩ := clean_field hp (d := 39) (Or.inr (Or.inl rfl)) (pos := pos + (pre 43 init).length) (by omega)
  refine ⟨ts ++ us, ⟨sepTyp 39, [39], pos + (pre 43 init).length + p.length⟩, ?_, ?_, ?_, ?_⟩
  · have := h1.append h4
    simpa using this
  · intro t ht
    simp only [List.mem_append] at ht
    rcases ht with ht | ht
    · exact h2 t ht
    · exact (h5 t ht).2.2.1
  · simp [sepTyp]
  · intro more acc
    rw [List.append_assoc, h3, extractLoop_inner h5, h6, List.nil_append, extractLoop_end hne]
    simp

/-- Extraction of a segment on the wire. -/
theorem extract_segment {init : List Bytes} {p : Bytes} (hf : ∀ f ∈ init, Field f) (hp : Field p) (hne : p ≠ [])
    (hl : (pre 43 init ++ p).length < 2 ^ 63) :
    extractElements (pre 43 init ++ p ++ [39]) = .ok (init ++ [p]) := by
  obtain ⟨ts, e, h1, _, _, h4⟩ := clean_segment hf hp hne (pos := 0) (by omega)
  unfold extractElements
  rw [lex_eq_scan, h1.scan_eq_done]
  simp only [List.append_assoc, List.singleton_append]
  rw [h4, extractLoop_eof, List.nil_append]

theorem extract_segment_cut {init : List Bytes} {p u : Bytes} {k : Nat} (hf : ∀ f ∈ init, Field f) (hp : Field p)
    (hl : (pre 43 init ++ p).length < 2 ^ 63) (he : p = u ++ List.replicate (k + 1) 43) (res : List Bytes) :
    extractElements (pre 43 init ++ u ++ [39]) ≠ .ok res := by
  simp only [List.length_append] at hl
  obtain ⟨ts, h1, _, _⟩ := clean_fields hf (pos := 0) (by omega)
  obtain ⟨a, u', v, us, h2, h3, h4, h5, h6⟩ := field_cut hp (pos := 0 + (pre 43 init).length) he (by omega)
  have hc := h1.append h3
  have hlen : p.length = a.length + v.length := by rw [he, h2, h5]; simp
  obtain ⟨g1, g2⟩ := lexOne_cut (d := 39) (pos := (pre 43 init ++ a).length) (Or.inl rfl) h4 h5 h6 (by simp; omega)
  refine extract_fail (a := pre 43 init ++ a) (b := u' ++ [39]) (by simp [h2]) hc g1 g2 res

/-! ## Which elements are fields -/

theorem field_of_part {p : Bytes} (h : p = [] ∨ Value p) : Field p := by
  rcases h with rfl | h
  · exact .nil
  · exact .one h

theorem field_join {a b : Bytes} (ha : Field a) (hb : Field b) : Field (a ++ 58 :: b) := by
  induction ha with
  | nil => exact .none_more hb
  | one hv => exact .more hv hb
  | none_more _ ih => exact .none_more ih
  | @more p f hv _ ih =>
    rw [List.append_assoc, List.cons_append]
    exact .more hv ih

theorem field_pre {ps : List Bytes} (h : ∀ p ∈ ps, Field p) {q : Bytes} (hq : Field q) : Field (pre 58 ps ++ q) := by
  induction ps with
  | nil => exact hq
  | cons p ps ih =>
    rw [pre_cons, List.append_assoc, List.cons_append]
    exact field_join (h p (by simp)) (ih fun x hx => h x (by simp [hx]))

end Verif.Segment

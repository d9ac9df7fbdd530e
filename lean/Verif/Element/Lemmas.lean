import Verif.Element.Model
import Verif.Element.Spec
import Verif.Token.Value

/-
Lemmas about text, numbers, binary data and dates.
-/

namespace Verif.Element

open GoLib Charset Spec Verif.Token.Spec

/-! ## Characters and bytes -/

/-- The Latin-1 byte of a character. -/
def enc (s : Str) : Bytes := s.map fun c => UInt8.ofNat c.toNat

theorem toISO_ok {s : Str} (h : Latin1 s) : toISO s = .ok (enc s) := by
  unfold toISO enc
  rw [if_pos]
  simpa [Latin1] using h

theorem toISO_panic {s : Str} (h : ¬ Latin1 s) : toISO s = .panic := by
  unfold toISO
  rw [if_neg]
  simpa [Latin1] using h

theorem toISO_eq_ok {s : Str} {b : Bytes} : toISO s = .ok b ↔ Latin1 s ∧ b = enc s := by
  by_cases h : Latin1 s
  · rw [toISO_ok h]; simp [h, eq_comm]
  · rw [toISO_panic h]; simp [h]

theorem byte_char : ∀ b : Byte, (Char.ofNat b.toNat).toNat = b.toNat := by decide +kernel

theorem char_byte {c : Char} (h : c.toNat ≤ 255) : (UInt8.ofNat c.toNat).toNat = c.toNat := by
  rw [UInt8.toNat_ofNat']; omega

theorem char_ext {a b : Char} (h : a.toNat = b.toNat) : a = b := by
  rw [← Char.ofNat_toNat a, ← Char.ofNat_toNat b, h]

theorem char_back {c : Char} (h : c.toNat ≤ 255) : Char.ofNat (UInt8.ofNat c.toNat).toNat = c := by
  rw [char_byte h]
  exact Char.ofNat_toNat c

theorem toUTF8_enc {s : Str} (h : Latin1 s) : toUTF8 (enc s) = s := by
  unfold toUTF8 enc
  rw [List.map_map]
  conv => rhs; rw [← List.map_id s]
  apply List.map_congr_left
  intro c hc
  exact char_back (h c hc)

theorem latin1_toUTF8 (b : Bytes) : Latin1 (toUTF8 b) := by
  intro c hc
  simp only [toUTF8, List.mem_map] at hc
  obtain ⟨x, _, rfl⟩ := hc
  rw [byte_char]
  have := x.toNat_lt
  omega

theorem enc_toUTF8 (b : Bytes) : enc (toUTF8 b) = b := by
  unfold toUTF8 enc
  rw [List.map_map]
  conv => rhs; rw [← List.map_id b]
  apply List.map_congr_left
  intro c _
  simp only [Function.comp, id]
  rw [byte_char]
  simp

/-- A character equals an ASCII literal iff its byte does. -/
theorem enc_eq_iff {c : Char} (h : c.toNat ≤ 255) (b : Byte) :
    UInt8.ofNat c.toNat = b ↔ c.toNat = b.toNat := by
  constructor
  · rintro rfl; rw [char_byte h]
  · intro h2; apply UInt8.toNat_inj.1; rw [char_byte h, h2]

/-! ## Escaping -/

theorem special_iff (c : Char) : special c = true ↔ Special c := by
  simp [special, Special, or_assoc]

theorem escape_cons (c : Char) (s : Str) :
    escape (c :: s) = (if special c then ['?', c] else [c]) ++ escape s := by
  simp [escape]

theorem unescape_plain {c : Char} {s : Str} (h : c ≠ '?') : unescape (c :: s) = c :: unescape s := by
  cases s with
  | nil => simp [unescape]
  | cons d s =>
    rw [unescape]
    intro d' r' he
    exact absurd he h

theorem unescape_escape (s : Str) : unescape (escape s) = s := by
  induction s with
  | nil => simp [escape, unescape]
  | cons c s ih =>
    rw [escape_cons]
    by_cases h : special c = true
    · rw [if_pos h]
      simp only [List.cons_append, List.nil_append]
      rw [unescape, if_pos h, ih]
    · rw [if_neg h]
      simp only [List.cons_append, List.nil_append]
      rw [unescape_plain, ih]
      rintro rfl
      exact h (by decide)

theorem escape_latin1 {s : Str} : Latin1 (escape s) ↔ Latin1 s := by
  induction s with
  | nil => simp [escape]
  | cons c s ih =>
    rw [escape_cons]
    unfold Latin1 at *
    by_cases h : special c = true
    · simp only [h, if_true]
      simp only [List.cons_append, List.nil_append, List.mem_cons, forall_eq_or_imp]
      rw [ih]
      constructor
      · exact fun h => h.2
      · exact fun h => ⟨by decide, h⟩
    · simp only [h]
      simp only [Bool.false_eq_true, if_false, List.cons_append, List.nil_append, List.mem_cons, forall_eq_or_imp]
      rw [ih]

theorem enc_append (a b : Str) : enc (a ++ b) = enc a ++ enc b := by simp [enc]

theorem special_byte {c : Char} (h : c.toNat ≤ 255) :
    Special c ↔ Escapable (UInt8.ofNat c.toNat) := by
  have key : ∀ x : Byte, Special (Char.ofNat x.toNat) ↔ Escapable x := by
    unfold Special Escapable Delim
    decide +kernel
  have := key (UInt8.ofNat c.toNat)
  rwa [char_back h] at this

theorem special_ascii {c : Char} (h : Special c) : c.toNat ≤ 255 := by
  rcases h with rfl | rfl | rfl | rfl | rfl <;> decide

/-- Escaped text on the wire, unless there is a NUL in it. -/
theorem enc_escape_escaped {s : Str} (h : Latin1 s) (h0 : '\x00' ∉ s) : Escaped (enc (escape s)) := by
  induction s with
  | nil => exact .nil
  | cons c s ih =>
    have hc := h c (by simp)
    have ih' := ih (fun d hd => h d (by simp [hd])) (fun hm => h0 (by simp [hm]))
    rw [escape_cons, enc_append]
    by_cases hs : special c = true
    · rw [if_pos hs]
      exact .esc ((special_byte hc).1 ((special_iff c).1 hs)) ih'
    · rw [if_neg hs]
      have hs' : ¬ Escapable (UInt8.ofNat c.toNat) := fun hx => hs ((special_iff c).2 ((special_byte hc).2 hx))
      refine .plain (fun hd => hs' (Or.inl hd)) (fun he => hs' (Or.inr (Or.inl he))) ?_ ih'
      intro he
      rw [enc_eq_iff hc] at he
      apply h0
      have : c = '\x00' := char_ext (by simpa using he)
      simp [this]

theorem escaped_no_nul {v : Bytes} (h : Escaped v) : 0 ∉ v := by
  induction h with
  | nil => simp
  | plain h1 h2 h3 _ ih => simp [ih, h3.symm]
  | @esc c v h1 _ ih =>
    have : (0 : Byte) ≠ c := fun he => by
      subst he
      simp [Escapable, Delim] at h1
    simp [ih, this]

theorem escape_mem_nul {s : Str} (h : '\x00' ∈ s) : 0 ∈ enc (escape s) := by
  induction s with
  | nil => simp at h
  | cons c s ih =>
    rw [escape_cons, enc_append]
    simp only [List.mem_cons] at h
    rcases h with rfl | h
    · have : special '\x00' = false := by decide
      simp [this, enc]
    · simp [ih h]

theorem enc_escape_head (s : Str) (h : Latin1 s) : (enc (escape s)).head? ≠ some 64 := by
  cases s with
  | nil => simp [escape, enc]
  | cons c s =>
    rw [escape_cons]
    have hc := h c (by simp)
    by_cases hs : special c = true
    · rw [if_pos hs]
      simp [enc]
    · rw [if_neg hs]
      simp only [enc, List.map_cons, List.cons_append, List.nil_append, List.head?_cons]
      intro he
      simp only [Option.some.injEq] at he
      rw [enc_eq_iff hc] at he
      have : c = '@' := char_ext (by simpa using he)
      subst this
      exact hs (by decide)

theorem enc_escape_nil {s : Str} : enc (escape s) = [] ↔ s = [] := by
  cases s with
  | nil => simp [escape, enc]
  | cons c s =>
    rw [escape_cons]
    by_cases hs : special c = true <;> simp [hs, enc]

theorem isDigit_char {c : Char} (h : c.toNat ≤ 255) :
    Digit (UInt8.ofNat c.toNat) ↔ '0' ≤ c ∧ c ≤ '9' := by
  have : ∀ x : Char, ('0' ≤ x ∧ x ≤ '9') ↔ (48 ≤ x.toNat ∧ x.toNat ≤ 57) := by
    intro x
    rw [Char.le_def, Char.le_def, UInt32.le_iff_toNat_le, UInt32.le_iff_toNat_le]
    exact Iff.rfl
  rw [this]
  unfold Digit
  rw [char_byte h]

theorem escape_append (a b : Str) : escape (a ++ b) = escape a ++ escape b := by
  simp [escape]

theorem escape_digits {ds : Str} (h : ∀ c ∈ ds, '0' ≤ c ∧ c ≤ '9') : escape ds = ds := by
  induction ds with
  | nil => rfl
  | cons c ds ih =>
    rw [escape_cons, ih fun d hd => h d (by simp [hd])]
    have hc := h c (by simp)
    have : special c = false := by
      rw [← Bool.not_eq_true, special_iff]
      rintro (rfl | rfl | rfl | rfl | rfl) <;> revert hc <;> decide
    simp [this]

/-- Cutting a prefix of bytes that need no escape off the escaped text. -/
theorem enc_escape_prefix {p : Bytes} : ∀ {s : Str} {w : Bytes}, Latin1 s → enc (escape s) = p ++ w →
    (∀ b ∈ p, ¬ Escapable b) → ∃ s1 s2, s = s1 ++ s2 ∧ enc s1 = p ∧ enc (escape s2) = w := by
  induction p with
  | nil => intro s w _ h _; exact ⟨[], s, rfl, rfl, by simpa using h⟩
  | cons b p ih =>
    intro s w hl h hp
    cases s with
    | nil => simp [escape, enc] at h
    | cons c s =>
      have hc := hl c (by simp)
      rw [escape_cons, enc_append] at h
      by_cases hs : special c = true
      · rw [if_pos hs] at h
        simp only [enc, List.map_cons, List.cons_append, List.cons.injEq] at h
        exact absurd (by rw [← h.1]; simp [Escapable]) (hp b (by simp))
      · rw [if_neg hs] at h
        simp only [enc, List.map_cons, List.map_nil, List.cons_append, List.nil_append, List.cons.injEq] at h
        obtain ⟨s1, s2, rfl, h2, h3⟩ := ih (fun d hd => hl d (by simp [hd])) h.2
          (fun d hd => hp d (by simp [hd]))
        exact ⟨c :: s1, s2, rfl, by simp [enc, h.1] at h2 ⊢; exact h2, h3⟩

theorem not_escapable_digit {b : Byte} (h : Digit b ∨ b = 44) : ¬ Escapable b := by
  have := Token.digit_plain h
  rintro (h1 | h1 | h1)
  · exact this.1 h1
  · exact this.2.1 h1
  · exact this.2.2.2 h1

theorem malformed_text {s : Str} (h : Latin1 s) :
    MalformedFloat (enc (escape s)) ↔ LikeMalformedFloat s := by
  constructor
  · rintro ⟨ds, w, he, hd⟩
    have e : enc (escape s) = (48 :: ds ++ [44]) ++ w := by rw [he]; simp
    obtain ⟨s1, s2, rfl, h2, h3⟩ := enc_escape_prefix h e (by
      intro b hb
      apply not_escapable_digit
      simp only [List.cons_append, List.mem_cons, List.mem_append, List.not_mem_nil, or_false] at hb
      rcases hb with rfl | hb | rfl
      · left; simp [Digit]
      · exact Or.inl (hd.2 b hb)
      · exact Or.inr rfl)
    have hl1 : Latin1 s1 := fun c hc => h c (by simp [hc])
    cases s1 with
    | nil => simp [enc] at h2
    | cons c s1 =>
      rcases List.eq_nil_or_concat s1 with rfl | ⟨m, x, rfl⟩
      · simp [enc] at h2
      · simp only [enc, List.map_cons, List.concat_eq_append, List.map_append, List.map_nil, List.cons_append, List.cons.injEq] at h2
        obtain ⟨hc0, h2⟩ := h2
        have h4 := List.append_inj' h2 rfl
        simp only [List.cons.injEq, and_true] at h4
        have hc : c = '0' := by
          rw [enc_eq_iff (hl1 c (by simp))] at hc0
          exact char_ext (by simpa using hc0)
        have hx : x = ',' := by
          have := h4.2
          rw [enc_eq_iff (hl1 x (by simp))] at this
          exact char_ext (by simpa using this)
        refine ⟨m, s2, by simp [hc, hx], ?_, ?_⟩
        · rintro rfl; exact hd.1 (by simpa using h4.1.symm)
        · intro d hdm
          rw [← isDigit_char (hl1 d (by simp [hdm]))]
          apply hd.2
          rw [← h4.1]
          exact List.mem_map.2 ⟨d, hdm, rfl⟩
  · rintro ⟨ds, w, rfl, hne, hd⟩
    have e : '0' :: ds ++ ',' :: w = ('0' :: ds ++ [',']) ++ w := by simp
    refine ⟨enc ds, enc (escape w), ?_, ?_, ?_⟩
    · rw [e, escape_append, escape_append]
      have h1 : escape ('0' :: ds) = '0' :: ds := escape_digits (by
        intro c hc
        simp only [List.mem_cons] at hc
        rcases hc with rfl | hc
        · decide
        · exact hd c hc)
      rw [h1]
      simp [enc, escape, special]
    · simpa [enc] using hne
    · intro b hb
      simp only [enc, List.mem_map] at hb
      obtain ⟨c, hc, rfl⟩ := hb
      rw [isDigit_char (h c (by simp [hc]))]
      exact hd c hc

/-- Text on the wire is a value exactly if it is not empty, has no NUL and does
not look like a malformed number. -/
theorem text_value_iff {s : Str} (h : Latin1 s) :
    Value (enc (escape s)) ↔ s ≠ [] ∧ '\x00' ∉ s ∧ ¬ LikeMalformedFloat s := by
  constructor
  · rintro (⟨ds, p, he, _⟩ | ⟨h1, h2, h3, h4⟩)
    · exact absurd (by rw [he]; simp) (enc_escape_head s h)
    · refine ⟨fun hs => h1 (enc_escape_nil.2 hs), fun hm => ?_, fun hm => h4 ((malformed_text h).2 hm)⟩
      exact escaped_no_nul h2 (escape_mem_nul hm)
  · rintro ⟨h1, h2, h3⟩
    exact Or.inr ⟨fun hs => h1 (enc_escape_nil.1 hs), enc_escape_escaped h h2, enc_escape_head s h,
      fun hm => h3 ((malformed_text h).1 hm)⟩

/-! ## Numbers -/

theorem decimal_iff {s : Bytes} {n : Int} : atoi s = some n ↔ Decimal s n ∧ IsInt n := by
  constructor
  · intro h
    rcases atoi_some h with ⟨ds, h1, h2, h3, h4⟩ | ⟨ds, h1, h2, h3, h4⟩
    · rw [digitsVal_eq] at h3 h4
      exact ⟨⟨ds, h1, Or.inl ⟨h2, h3⟩⟩, by unfold IsInt; omega⟩
    · rw [digitsVal_eq] at h3 h4
      exact ⟨⟨ds, h1, Or.inr ⟨h2, h3⟩⟩, by unfold IsInt; omega⟩
  · rintro ⟨⟨ds, h1, ⟨h2 | h2, h3⟩ | ⟨h2, h3⟩⟩, h4⟩
    · subst h2
      unfold IsInt at h4
      rw [atoi_digits h1 (by rw [digitsVal_eq]; omega), digitsVal_eq, h3]
    · subst h2
      unfold IsInt at h4
      have := atoi_digits h1 (by rw [digitsVal_eq]; omega)
      rw [digitsVal_eq] at this
      -- a leading plus sign changes nothing
      have e : atoi (43 :: ds) = atoi ds := by
        cases ds with
        | nil => exact absurd rfl h1.1
        | cons a r =>
          have ha := h1.2 a (by simp)
          unfold atoi
          have g1 : a ≠ 45 := by rintro rfl; simp [Digit] at ha
          have g2 : a ≠ 43 := by rintro rfl; simp [Digit] at ha
          simp [g1, g2]
      rw [e, this, h3]
    · subst h2
      unfold IsInt at h4
      rw [atoi_neg h1 (by rw [digitsVal_eq]; omega), digitsVal_eq, h3]

theorem value_natDec (n : Nat) : Token.Spec.value (natDec n) = n := by
  rw [← digitsVal_eq, digitsVal_natDec]

theorem zeros_digits {k : Nat} {ds : Bytes} (h : DigitString ds) : DigitString (List.replicate k 48 ++ ds) := by
  refine ⟨by simp [h.1], ?_⟩
  intro b hb
  simp only [List.mem_append, List.mem_replicate] at hb
  rcases hb with ⟨_, rfl⟩ | hb
  · simp [Digit]
  · exact h.2 b hb

theorem atoi_zeroPad (w : Nat) (n : Int) (h : IsInt n) : atoi (zeroPad w n) = some n := by
  unfold IsInt at h
  unfold zeroPad
  dsimp only
  split
  · rw [atoi_neg (zeros_digits (natDec_digits _)) (by rw [digitsVal_zeros, digitsVal_natDec]; omega),
      digitsVal_zeros, digitsVal_natDec]
    congr 1; omega
  · rw [atoi_digits (zeros_digits (natDec_digits _)) (by rw [digitsVal_zeros, digitsVal_natDec]; omega),
      digitsVal_zeros, digitsVal_natDec]
    congr 1; omega

theorem natDec_pos (n : Nat) : 1 ≤ (natDec n).length := by
  have := (natDec_digits n).1
  cases h : natDec n with
  | nil => exact absurd h this
  | cons => simp

theorem neg_value {ds : Bytes} (h : Escaped ds) : Value (45 :: ds) := by
  refine Or.inr ⟨by simp, .plain (by simp [Delim]) (by decide) (by decide) h, by simp, ?_⟩
  rintro ⟨a, b, he, _⟩
  simp at he

theorem itoa_value (n : Int) : Value (itoa n) := by
  unfold itoa
  split
  · exact neg_value (Token.digitString_escaped fun b hb => Or.inl ((natDec_digits _).2 b hb))
  · exact Token.value_of_digits (natDec_digits _)

theorem zeroPad_value (w : Nat) (n : Int) : Value (zeroPad w n) := by
  unfold zeroPad
  dsimp only
  split
  · exact neg_value (Token.digitString_escaped fun b hb => Or.inl ((zeros_digits (natDec_digits _)).2 b hb))
  · exact Token.value_of_digits (zeros_digits (natDec_digits _))

/-! ## Binary -/

theorem marshalBinary_value (d : Bytes) : Value (marshalBinary d) :=
  Or.inl ⟨natDec d.length, d, rfl, natDec_digits _, (value_natDec _).symm⟩

theorem takeWhile_ne {s rest : Bytes} {c : Byte} (h : c ∉ s) :
    (s ++ c :: rest).takeWhile (· != c) = s ∧ (s ++ c :: rest).dropWhile (· != c) = c :: rest := by
  induction s with
  | nil => simp
  | cons a s ih =>
    have ha : a ≠ c := fun he => h (by simp [he])
    have := ih fun hm => h (by simp [hm])
    simp [ha, this.1, this.2]

theorem split_at {r : Bytes} {c : Byte} {x : Byte} {rest : Bytes} (h : r.dropWhile (· != c) = x :: rest) :
    x = c ∧ r = r.takeWhile (· != c) ++ c :: rest ∧ c ∉ r.takeWhile (· != c) := by
  have h1 := List.takeWhile_append_dropWhile (p := fun y => y != c) (l := r)
  have h2 := List.head?_dropWhile_not (p := fun y => y != c) (l := r)
  rw [h] at h1 h2
  simp at h2
  subst h2
  refine ⟨rfl, h1.symm, ?_⟩
  intro hm
  have := Token.takeWhile_all (p := fun y => y != x) x hm
  simp at this

theorem decimal_no_at {s : Bytes} {n : Int} (h : Decimal s n) : 64 ∉ s := by
  obtain ⟨ds, h1, h2⟩ := h
  have : 64 ∉ ds := fun hm => by have := h1.2 64 hm; simp [Digit] at this
  rcases h2 with ⟨rfl | rfl, _⟩ | ⟨rfl, _⟩ <;> simp [this]

/-- The decoder on `@s@rest`. -/
theorem unmarshalBinary_eq {s rest : Bytes} (h : 64 ∉ s) :
    unmarshalBinary (64 :: s ++ 64 :: rest) =
      match atoi s with
      | none => .err
      | some n =>
        if n < 0 ∨ maxAlloc < n then .panic
        else if rest = [] ∧ n ≠ 0 then .err
        else .ok (rest.take n.toNat ++ List.replicate (n.toNat - rest.length) 0) := by
  obtain ⟨h1, h2⟩ := takeWhile_ne (rest := rest) h
  simp only [unmarshalBinary, List.cons_append]
  rw [h1, h2]
  rw [if_neg (by simp)]
  cases atoi s <;> rfl

/-- Everything else is an error. -/
theorem unmarshalBinary_cases (v : Bytes) :
    (∃ s rest, v = 64 :: s ++ 64 :: rest ∧ 64 ∉ s) ∨ unmarshalBinary v = .err := by
  cases v with
  | nil => right; rfl
  | cons c r =>
    by_cases hc : c = 64
    · subst hc
      cases h : r.dropWhile (· != 64) with
      | nil => right; simp [unmarshalBinary, h]
      | cons x rest =>
        left
        obtain ⟨_, h2, h3⟩ := split_at h
        exact ⟨_, rest, by rw [List.cons_append, ← h2], h3⟩
    · right; simp [unmarshalBinary, hc]

end Verif.Element

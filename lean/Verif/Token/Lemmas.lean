import Verif.Token.Refine
import Verif.Token.Spec

/-
Helper lemmas about the scanner: locality, classes of tokens, losslessness.
-/

namespace Verif.Token

open Spec

/-! ## Bytes -/

theorem isDig_iff : ∀ b : Byte, isDig b = true ↔ 48 ≤ b.toNat ∧ b.toNat ≤ 57 := by decide +kernel

theorem isDelimiter_iff (b : Byte) : isDelimiter b = true ↔ Delim b := by
  simp [isDelimiter, Delim, or_assoc]

theorem isSyntaxSymbol_iff (b : Byte) : isSyntaxSymbol b = true ↔ Escapable b := by
  simp [isSyntaxSymbol, Escapable, Delim, or_assoc]

theorem isDigit_spec (b : Byte) : isDig b = true ↔ Spec.Digit b := isDig_iff b

/-! ## Values of digit strings -/

theorem decVal_append (a : Bytes) (d : Byte) : decVal (a ++ [d]) = decVal a * 10 + (d.toNat - 48) := by
  simp [decVal]

theorem foldl_dec (ds : Bytes) (n : Nat) :
    ds.foldl (fun n d => n * 10 + (d.toNat - 48)) n = n * 10 ^ ds.length + Spec.value ds := by
  induction ds generalizing n with
  | nil => simp [Spec.value]
  | cons d ds ih =>
    simp only [List.foldl_cons, ih, List.length_cons, Spec.value]
    rw [Nat.pow_succ, Nat.add_mul, Nat.mul_assoc, Nat.mul_comm 10]
    omega

theorem decVal_eq (ds : Bytes) : decVal ds = Spec.value ds := by
  have := foldl_dec ds 0
  simpa [decVal] using this

/-! ## Escaped text -/

/-- Contains CR or LF, as a Boolean. -/
def hasNL (v : Bytes) : Bool := v.any fun c => c == 10 || c == 13

theorem hasNL_iff (v : Bytes) : hasNL v = true ↔ HasLineBreak v := by
  simp only [hasNL, HasLineBreak, List.any_eq_true, Bool.or_eq_true, beq_iff_eq]
  constructor
  · rintro ⟨x, hx, rfl | rfl⟩ <;> simp [hx]
  · rintro (h | h)
    · exact ⟨_, h, Or.inl rfl⟩
    · exact ⟨_, h, Or.inr rfl⟩

theorem scanAlnum_cons (k : Nat) (text : Bool) (r : Byte) (rest : Bytes) (h : (r == 63) = false) :
    scanAlnum k text (r :: rest) =
      if isDelimiter r then .tok (if text then .text else .alphaNumeric) k
      else if r == 0 then .err b!"Unexpected end of input"
      else if r == 10 || r == 13 then scanAlnum (k + 1) true rest
      else scanAlnum (k + 1) text rest := by
  rw [scanAlnum.eq_def]
  simp [h]

theorem scanAlnum_escaped {v : Bytes} (hv : Escaped v) : ∀ (k : Nat) (text : Bool) (d : Byte) (r : Bytes),
    Delim d → scanAlnum k text (v ++ d :: r) =
      .tok (if text || hasNL v then .text else .alphaNumeric) (k + v.length) := by
  induction hv with
  | nil =>
    intro k text d r hd
    have h1 : (d == 63) = false := by rcases hd with rfl | rfl | rfl <;> decide
    have h2 : isDelimiter d = true := (isDelimiter_iff d).2 hd
    rw [List.nil_append, scanAlnum_cons _ _ _ _ h1]
    simp [h2, hasNL]
  | @plain c v h1 h2 h3 _ ih =>
    intro k text d r hd
    have g1 : (c == 63) = false := by simpa using h2
    have g2 : isDelimiter c = false := by
      rw [← Bool.not_eq_true, isDelimiter_iff]; exact h1
    have g3 : (c == 0) = false := by simpa using h3
    rw [List.cons_append, scanAlnum_cons _ _ _ _ g1]
    simp only [g2, g3, Bool.false_eq_true, if_false]
    by_cases hn : (c == 10 || c == 13) = true
    · rw [if_pos hn, ih _ _ _ _ hd]
      simp [hasNL, hn]; omega
    · rw [if_neg hn, ih _ _ _ _ hd]
      simp only [Bool.not_eq_true] at hn
      simp [hasNL, hn]; omega
  | @esc c v h1 _ ih =>
    intro k text d r hd
    have g : isSyntaxSymbol c = true := (isSyntaxSymbol_iff c).2 h1
    have hn : (c == 10 || c == 13) = false := by
      rcases h1 with (rfl | rfl | rfl) | rfl | rfl <;> decide
    rw [List.cons_append, List.cons_append, scanAlnum.eq_def]
    simp only [g, beq_self_eq_true, if_true]
    rw [ih _ _ _ _ hd]
    simp [hasNL, hn]; omega

theorem scanAlnum_inv {k : Nat} {text : Bool} {rest : Bytes} {t : Typ} {n : Nat}
    (h : scanAlnum k text rest = .tok t n) :
    ∃ v d r, rest = v ++ d :: r ∧ Escaped v ∧ Delim d := by
  fun_induction scanAlnum k text rest with
  | case1 => simp at h
  | case2 => simp at h
  | case3 k text r hr p rest' hp ih =>
    obtain ⟨v, d, r', rfl, hv, hd⟩ := ih h
    have hr' : r = 63 := by simpa using hr
    exact ⟨63 :: p :: v, d, r', by simp [hr'], .esc ((isSyntaxSymbol_iff p).1 hp) hv, hd⟩
  | case4 => simp at h
  | case5 k text r rest h1 h2 => exact ⟨[], r, rest, rfl, .nil, (isDelimiter_iff r).1 h2⟩
  | case6 => simp at h
  | case7 k text r rest h1 h2 h3 h4 ih =>
    obtain ⟨v, d, r', rfl, hv, hd⟩ := ih h
    refine ⟨r :: v, d, r', rfl, .plain ?_ (by simpa using h1) (by simpa using h3) hv, hd⟩
    rw [← isDelimiter_iff]; exact h2
  | case8 k text r rest h1 h2 h3 h4 ih =>
    obtain ⟨v, d, r', rfl, hv, hd⟩ := ih h
    refine ⟨r :: v, d, r', rfl, .plain ?_ (by simpa using h1) (by simpa using h3) hv, hd⟩
    rw [← isDelimiter_iff]; exact h2

theorem digit_plain {c : Byte} (h : Spec.Digit c ∨ c = 44) : ¬ Delim c ∧ c ≠ 63 ∧ c ≠ 0 ∧ c ≠ 64 := by
  rcases h with h | rfl
  · refine ⟨?_, ?_, ?_, ?_⟩
    · rintro (rfl | rfl | rfl) <;> simp [Spec.Digit] at h
    all_goals rintro rfl; simp [Spec.Digit] at h
  · simp [Delim]

theorem escaped_prepend {a v : Bytes} (ha : ∀ c ∈ a, Spec.Digit c ∨ c = 44) (hv : Escaped v) :
    Escaped (a ++ v) := by
  induction a with
  | nil => exact hv
  | cons c a ih =>
    have := digit_plain (ha c (by simp))
    exact .plain this.1 this.2.1 this.2.2.1 (ih fun x hx => ha x (by simp [hx]))

theorem escaped_drop {a v : Bytes} (ha : ∀ c ∈ a, Spec.Digit c ∨ c = 44) (hv : Escaped (a ++ v)) :
    Escaped v := by
  induction a with
  | nil => exact hv
  | cons c a ih =>
    have := digit_plain (ha c (by simp))
    generalize hx : c :: a ++ v = x at hv
    cases hv with
    | nil => simp at hx
    | plain _ _ _ h =>
      rw [List.cons_append, List.cons.injEq] at hx
      rw [← hx.2] at h
      exact ih (fun x hx => ha x (by simp [hx])) h
    | esc =>
      rw [List.cons_append, List.cons.injEq] at hx
      exact absurd hx.1 this.2.1

theorem hasNL_prepend {a v : Bytes} (ha : ∀ c ∈ a, Spec.Digit c ∨ c = 44) :
    hasNL (a ++ v) = hasNL v := by
  have : hasNL a = false := by
    rw [← Bool.not_eq_true, hasNL_iff]
    rintro (h | h)
    · rcases ha _ h with h | h
      · simp [Spec.Digit] at h
      · simp at h
    · rcases ha _ h with h | h
      · simp [Spec.Digit] at h
      · simp at h
  simp only [hasNL, List.any_append] at this ⊢
  simp [this]

/-! ## Kinds of tokens -/

/-- The values of tokens of type `t` starting at position `pos`. -/
def Kind (pos : Nat) (t : Typ) (v : Bytes) : Prop :=
  match t with
  | .numeric => Numeric v
  | .digit => LeadingZero v
  | .float => Spec.Float v
  | .binaryData => Spec.Binary v ∧ pos + v.length < 2 ^ 63
  | .alphaNumeric => Alnum v ∧ ¬ MalformedFloat v ∧ ¬ HasLineBreak v
  | .text => Alnum v ∧ ¬ MalformedFloat v ∧ HasLineBreak v
  | _ => False

/-- Types of the three delimiters. -/
def sepTyp (d : Byte) : Typ :=
  if d = 43 then .dataElementSeparator
  else if d = 39 then .segmentEndMarker
  else .groupDataElementSeparator

theorem span_digits {ds : Bytes} (hds : ∀ b ∈ ds, Spec.Digit b) {c : Byte} (hc : ¬ Spec.Digit c) (r : Bytes) :
    (ds ++ c :: r).takeWhile isDig = ds ∧ (ds ++ c :: r).dropWhile isDig = c :: r := by
  have hc' : isDig c = false := by rw [← Bool.not_eq_true, isDigit_spec]; exact hc
  induction ds with
  | nil => simp [hc']
  | cons d ds ih =>
    have hd : isDig d = true := (isDigit_spec d).2 (hds d (by simp))
    have := ih fun b hb => hds b (by simp [hb])
    simp [hd, this]

theorem not_digit_of_delim {d : Byte} (hd : Delim d) : ¬ Spec.Digit d := by
  rcases hd with rfl | rfl | rfl <;> simp [Spec.Digit]

theorem span_inv (l : Bytes) : (l.dropWhile isDig = [] ∨
    ∃ ds c r, l = ds ++ c :: r ∧ (∀ b ∈ ds, Spec.Digit b) ∧ ¬ Spec.Digit c ∧
      l.takeWhile isDig = ds ∧ l.dropWhile isDig = c :: r) := by
  rcases digits_cases l with ⟨h, _⟩ | ⟨c, r, h1, h2, h3⟩
  · exact Or.inl h
  · right
    refine ⟨l.takeWhile isDig, c, r, h3, ?_, ?_, rfl, h1⟩
    · intro b hb; exact (isDigit_spec b).1 (takeWhile_all b hb)
    · rw [← isDigit_spec, h2]; simp

/-- Escaped text does not start with a delimiter. -/
theorem escaped_head {c : Byte} {w : Bytes} (h : Escaped (c :: w)) : ¬ Delim c := by
  cases h with
  | plain h _ _ _ => exact h
  | esc _ _ => simp [Delim]

theorem scanTail_escaped {ty : Typ} {k : Nat} {w : Bytes} (hw : Escaped w) (hne : w ≠ []) {d : Byte}
    (hd : Delim d) (r : Bytes) :
    scanTail ty k (w ++ d :: r) = .tok (if hasNL w then .text else .alphaNumeric) (k + w.length) := by
  cases w with
  | nil => simp at hne
  | cons c w =>
    have h := scanAlnum_escaped hw k false d r hd
    have hc : isDelimiter c = false := by
      rw [← Bool.not_eq_true, isDelimiter_iff]; exact escaped_head hw
    simp only [List.cons_append] at h
    simp only [scanTail, List.cons_append, hc, h]
    simp

theorem scanTail_delim {ty : Typ} {k : Nat} {d : Byte} (hd : Delim d) (r : Bytes) :
    scanTail ty k (d :: r) = .tok ty k := by
  simp [scanTail, (isDelimiter_iff d).2 hd]

theorem scanTail_inv {ty t : Typ} {k n : Nat} {rest : Bytes} (h : scanTail ty k rest = .tok t n) :
    ∃ w d r, rest = w ++ d :: r ∧ Escaped w ∧ Delim d := by
  cases rest with
  | nil => simp [scanTail] at h
  | cons c r =>
    simp only [scanTail] at h
    split at h
    · rename_i hc; exact ⟨[], c, r, rfl, .nil, (isDelimiter_iff c).1 hc⟩
    · exact scanAlnum_inv h

/-! ### From kinds to tokens -/

/-- The first byte of a token that is neither binary nor a delimiter. -/
theorem lexOne_number {pos : Nat} {c : Byte} {rest : Bytes} (hc : Spec.Digit c) (h0 : c ≠ 48) :
    lexOne pos (c :: rest) = scanNumber (c :: rest) := by
  have h := digit_plain (Or.inl hc)
  have hd : isDelimiter c = false := by rw [← Bool.not_eq_true, isDelimiter_iff]; exact h.1
  simp only [isDelimiter, Bool.or_eq_false_iff] at hd
  have h64 : (c == 64) = false := by simpa using h.2.2.2
  have hz : (c == 0) = false := by simpa using h.2.2.1
  have h48 : (c == 48) = false := by simpa using h0
  have hr : 49 ≤ c ∧ c ≤ 57 := by
    have : ∀ b : Byte, (48 ≤ b.toNat ∧ b.toNat ≤ 57) → b ≠ 48 → 49 ≤ b ∧ b ≤ 57 := by decide +kernel
    exact this c hc h0
  simp only [lexOne, hd, h64, hz, h48, Bool.false_eq_true, if_false]
  rw [if_pos hr]

theorem lexOne_zero {pos : Nat} {rest : Bytes} : lexOne pos (48 :: rest) = scanDigit rest := by
  simp [lexOne]

theorem lexOne_other {pos : Nat} {c : Byte} {rest : Bytes} (h1 : ¬ Delim c) (h2 : c ≠ 64) (h3 : c ≠ 0)
    (h4 : ¬ Spec.Digit c) : lexOne pos (c :: rest) = scanAlnum 0 false (c :: rest) := by
  have hd : isDelimiter c = false := by rw [← Bool.not_eq_true, isDelimiter_iff]; exact h1
  simp only [isDelimiter, Bool.or_eq_false_iff] at hd
  have h64 : (c == 64) = false := by simpa using h2
  have hz : (c == 0) = false := by simpa using h3
  have h48 : (c == 48) = false := by
    rw [beq_eq_false_iff_ne]; rintro rfl; exact h4 (by simp [Spec.Digit])
  have hr : ¬ (49 ≤ c ∧ c ≤ 57) := by
    have : ∀ b : Byte, 49 ≤ b ∧ b ≤ 57 → (48 ≤ b.toNat ∧ b.toNat ≤ 57) := by decide +kernel
    exact fun h => h4 (this c h)
  simp only [lexOne, hd, h64, hz, h48, Bool.false_eq_true, if_false]
  rw [if_neg hr]

theorem lexOne_delim {pos : Nat} {d : Byte} (hd : Delim d) (r : Bytes) :
    lexOne pos (d :: r) = .tok (sepTyp d) 1 := by
  rcases hd with rfl | rfl | rfl <;> simp [lexOne, sepTyp]

theorem comma_not_digit : ¬ Spec.Digit 44 := by simp [Spec.Digit]
theorem comma_not_delim : ¬ Delim 44 := by simp [Delim]

/-- Scanning text that begins with a digit run followed by something else. -/
theorem lexOne_digits_other {pos : Nat} {ds : Bytes} {c : Byte} {r : Bytes}
    (hds : DigitString ds) (hnum : ds.head? ≠ some 48) (hc : ¬ Spec.Digit c) (hcm : c ≠ 44) :
    lexOne pos (ds ++ c :: r) = scanTail .numeric ds.length (c :: r) := by
  cases ds with
  | nil => exact absurd rfl hds.1
  | cons a ds =>
    have ha := hds.2 a (by simp)
    have h0 : a ≠ 48 := by rintro rfl; simp at hnum
    rw [List.cons_append, lexOne_number ha h0]
    obtain ⟨h1, h2⟩ := span_digits hds.2 hc r
    rw [List.cons_append] at h1 h2
    have hcm' : (c == 44) = false := by simpa using hcm
    simp [scanNumber, h1, h2, hcm']

theorem lexOne_digits_comma {pos : Nat} {ds ds' : Bytes} {c : Byte} {r : Bytes}
    (hds : Numeric ds) (hds' : ∀ b ∈ ds', Spec.Digit b) (hc : ¬ Spec.Digit c) :
    lexOne pos (ds ++ 44 :: (ds' ++ c :: r)) =
      scanTail .float (ds.length + 1 + ds'.length) (c :: r) := by
  obtain ⟨h3, h4⟩ := span_digits hds' hc r
  by_cases hz : ds = [48]
  · subst hz
    simp only [List.cons_append, List.nil_append, lexOne_zero, scanDigit]
    have : isDelimiter 44 = false := by decide
    simp [this, h3, h4]
  · have hnum : ds.head? ≠ some 48 := by
      rcases hds.2 with h | h
      · exact absurd h hz
      · exact h
    cases ds with
    | nil => exact absurd rfl hds.1.1
    | cons a ds =>
      have ha := hds.1.2 a (by simp)
      have h0 : a ≠ 48 := by rintro rfl; simp at hnum
      rw [List.cons_append, lexOne_number ha h0]
      obtain ⟨h1, h2⟩ := span_digits hds.1.2 comma_not_digit (ds' ++ c :: r)
      rw [List.cons_append] at h1 h2
      simp [scanNumber, h1, h2, h3, h4]

theorem lexOne_zero_delim {pos : Nat} {d : Byte} (hd : Delim d) (r : Bytes) :
    lexOne pos (48 :: d :: r) = .tok .numeric 1 := by
  simp [lexOne_zero, scanDigit, (isDelimiter_iff d).2 hd]

/-- A leading zero followed by `ds` digits and then something else. -/
theorem lexOne_zero_digits {pos : Nat} {ds : Bytes} {c : Byte} {r : Bytes}
    (hds : DigitString ds) (hc : ¬ Spec.Digit c) (hcm : c ≠ 44) :
    lexOne pos (48 :: (ds ++ c :: r)) = scanTail .digit (1 + ds.length) (c :: r) := by
  obtain ⟨h1, h2⟩ := span_digits hds.2 hc r
  cases ds with
  | nil => exact absurd rfl hds.1
  | cons a ds =>
    have ha := digit_plain (Or.inl (hds.2 a (by simp)))
    have hd : isDelimiter a = false := by rw [← Bool.not_eq_true, isDelimiter_iff]; exact ha.1
    have ha44 : (a == 44) = false := by
      rw [beq_eq_false_iff_ne]; rintro rfl
      exact comma_not_digit (hds.2 44 (by simp))
    have hcm' : (c == 44) = false := by simpa using hcm
    rw [lexOne_zero, List.cons_append]
    rw [List.cons_append] at h1 h2
    simp [scanDigit, hd, ha44, h1, h2, hcm']

/-- A leading zero followed directly by something that is no digit, comma or delimiter. -/
theorem lexOne_zero_other {pos : Nat} {c : Byte} {r : Bytes}
    (hc : ¬ Spec.Digit c) (hcm : c ≠ 44) (hd : ¬ Delim c) :
    lexOne pos (48 :: c :: r) = scanTail .digit 1 (c :: r) := by
  have hd : isDelimiter c = false := by rw [← Bool.not_eq_true, isDelimiter_iff]; exact hd
  have hcm' : (c == 44) = false := by simpa using hcm
  have hc' : isDig c = false := by rw [← Bool.not_eq_true, isDigit_spec]; exact hc
  rw [lexOne_zero]
  simp [scanDigit, hd, hcm', hc']

theorem lexOne_binary {pos : Nat} {ds payload : Bytes} {d : Byte} {r : Bytes} (hds : DigitString ds)
    (hlen : payload.length = Spec.value ds) (hd : Delim d)
    (hov : pos + (64 :: ds ++ 64 :: payload).length < 2 ^ 63) :
    lexOne pos (64 :: ds ++ 64 :: payload ++ d :: r) =
      .tok .binaryData (64 :: ds ++ 64 :: payload).length := by
  have h64 : ¬ Spec.Digit 64 := by simp [Spec.Digit]
  obtain ⟨h1, h2⟩ := span_digits hds.2 h64 (payload ++ d :: r)
  have e : 64 :: ds ++ 64 :: payload ++ d :: r = 64 :: (ds ++ 64 :: (payload ++ d :: r)) := by simp
  rw [e]
  have hl : lexOne pos (64 :: (ds ++ 64 :: (payload ++ d :: r)))
      = scanBinary pos (ds ++ 64 :: (payload ++ d :: r)) := by simp [lexOne]
  rw [hl]
  unfold scanBinary
  dsimp only
  rw [h1, h2]
  dsimp only
  have hne : ds.length ≠ 0 := by simpa using hds.1
  simp only [List.length_append, List.length_cons] at hov
  rw [decVal_eq, ← hlen, if_neg hne, if_neg (by omega), if_neg (by decide), if_neg (by omega)]
  simp only [List.drop_left, (isDelimiter_iff d).2 hd, if_true, List.length_append, List.length_cons,
    One.tok.injEq, true_and]
  omega

/-- Escaped text, not of the malformed-float form, is an alphanumeric token. -/
theorem lexOne_alnum {pos : Nat} {v : Bytes} (hv : Alnum v) (hm : ¬ MalformedFloat v) {d : Byte}
    (hd : Delim d) (r : Bytes) :
    lexOne pos (v ++ d :: r) = .tok (if hasNL v then .text else .alphaNumeric) v.length := by
  obtain ⟨hne, hesc, h64, hnd, hnf⟩ := hv
  rcases digits_cases v with ⟨_, h2⟩ | ⟨c, w, h1, h2, h3⟩
  · exfalso
    apply hnd
    refine ⟨hne, fun b hb => ?_⟩
    rw [h2] at hb
    exact (isDigit_spec b).1 (takeWhile_all b hb)
  · have hds : ∀ b ∈ v.takeWhile isDig, Spec.Digit b := fun b hb => (isDigit_spec b).1 (takeWhile_all b hb)
    generalize v.takeWhile isDig = ds at *
    have hc : ¬ Spec.Digit c := by rw [← isDigit_spec, h2]; simp
    subst h3
    have hcw : Escaped (c :: w) := escaped_drop (fun x hx => Or.inl (hds x hx)) hesc
    have hcd := escaped_head hcw
    have hnl : hasNL (ds ++ c :: w) = hasNL (c :: w) := hasNL_prepend fun x hx => Or.inl (hds x hx)
    have hass : (ds ++ c :: w) ++ d :: r = ds ++ c :: (w ++ d :: r) := by simp
    rw [hnl, hass]
    by_cases hdsn : ds = []
    · subst hdsn
      have hc0 : c ≠ 0 := by
        cases hcw with
        | plain _ _ h _ => exact h
        | esc _ _ => decide
      have hc64 : c ≠ 64 := by rintro rfl; simp at h64
      rw [List.nil_append, lexOne_other hcd hc64 hc0 hc]
      have := scanAlnum_escaped hcw 0 false d r hd
      simpa using this
    · by_cases hcm : c = 44
      · subst hcm
        -- a float prefix
        by_cases hnum : Numeric ds
        · rcases digits_cases w with ⟨_, g2⟩ | ⟨c', w', g1, g2, g3⟩
          · exfalso
            refine hnf ⟨ds, w, rfl, hnum, fun b hb => ?_⟩
            rw [g2] at hb
            exact (isDigit_spec b).1 (takeWhile_all b hb)
          · have hds' : ∀ b ∈ w.takeWhile isDig, Spec.Digit b :=
              fun b hb => (isDigit_spec b).1 (takeWhile_all b hb)
            generalize w.takeWhile isDig = ds' at *
            have hc' : ¬ Spec.Digit c' := by rw [← isDigit_spec, g2]; simp
            subst g3
            have hall : ∀ x ∈ 44 :: ds', Spec.Digit x ∨ x = 44 := by
              intro x hx
              simp only [List.mem_cons] at hx
              rcases hx with h | h
              · exact Or.inr h
              · exact Or.inl (hds' x h)
            have hw' : Escaped (c' :: w') := escaped_drop (a := 44 :: ds') hall hcw
            have hnl' : hasNL (44 :: (ds' ++ c' :: w')) = hasNL (c' :: w') :=
              hasNL_prepend (a := 44 :: ds') hall
            have := lexOne_digits_comma (pos := pos) (r := w' ++ d :: r) hnum hds' hc'
            have e : (ds' ++ c' :: w') ++ d :: r = ds' ++ c' :: (w' ++ d :: r) := by simp
            rw [e, this, hnl']
            have := scanTail_escaped (ty := .float) (k := ds.length + 1 + ds'.length) hw' (by simp) hd r
            rw [List.cons_append] at this
            rw [this]
            congr 1
            simp; omega
        · -- leading zero and comma: malformed
          exfalso
          have hD : DigitString ds := ⟨hdsn, hds⟩
          cases ds with
          | nil => exact hdsn rfl
          | cons a ds =>
            by_cases ha : a = 48
            · subst ha
              cases ds with
              | nil => exact hnum ⟨hD, Or.inl rfl⟩
              | cons a' ds =>
                exact hm ⟨a' :: ds, w, rfl, by simp, fun b hb => hds b (by simp [hb])⟩
            · exact hnum ⟨hD, Or.inr (by simpa using ha)⟩
      · have htail : ∀ ty k, scanTail ty k (c :: (w ++ d :: r)) =
            .tok (if hasNL (c :: w) then .text else .alphaNumeric) (k + (c :: w).length) := by
          intro ty k
          have := scanTail_escaped (ty := ty) (k := k) hcw (by simp) hd r
          rwa [List.cons_append] at this
        by_cases h0 : ds.head? = some 48
        · cases ds with
          | nil => simp at h0
          | cons a ds =>
            simp at h0
            subst h0
            cases ds with
            | nil =>
              rw [List.cons_append, List.nil_append, lexOne_zero_other hc hcm hcd, htail]
              simp [Nat.add_comm]
            | cons a' ds =>
              have hD : DigitString (a' :: ds) := ⟨by simp, fun b hb => hds b (by simp [hb])⟩
              rw [List.cons_append, lexOne_zero_digits hD hc hcm, htail]
              congr 1; simp; omega
        · rw [lexOne_digits_other ⟨hdsn, hds⟩ h0 hc hcm, htail]
          simp

theorem lexOne_of_kind {pos : Nat} {t : Typ} {v : Bytes} (h : Kind pos t v) {d : Byte} (hd : Delim d)
    (r : Bytes) : lexOne pos (v ++ d :: r) = .tok t v.length := by
  have hdd := not_digit_of_delim hd
  have hdc : d ≠ 44 := by rintro rfl; exact comma_not_delim hd
  cases t with
  | numeric =>
    obtain ⟨h1, h2⟩ := h
    by_cases hz : v = [48]
    · subst hz; exact lexOne_zero_delim hd r
    · have := h2.resolve_left hz
      rw [lexOne_digits_other h1 this hdd hdc, scanTail_delim hd]
  | digit =>
    obtain ⟨ds, rfl, h⟩ := h
    rw [List.cons_append, lexOne_zero_digits h hdd hdc, scanTail_delim hd]
    simp [Nat.add_comm]
  | float =>
    obtain ⟨n, ds, rfl, h1, h2⟩ := h
    have e : (n ++ 44 :: ds) ++ d :: r = n ++ 44 :: (ds ++ d :: r) := by simp
    rw [e, lexOne_digits_comma h1 h2 hdd, scanTail_delim hd]
    congr 1; simp; omega
  | binaryData =>
    obtain ⟨⟨ds, p, rfl, h1, h2⟩, h3⟩ := h
    exact lexOne_binary h1 h2 hd h3
  | alphaNumeric =>
    obtain ⟨h1, h2, h3⟩ := h
    have : hasNL v = false := by rw [← Bool.not_eq_true, hasNL_iff]; exact h3
    rw [lexOne_alnum h1 h2 hd, this]; rfl
  | text =>
    obtain ⟨h1, h2, h3⟩ := h
    rw [lexOne_alnum h1 h2 hd, (hasNL_iff v).2 h3]; rfl
  | _ => exact absurd h (by simp [Kind])

/-! ### From tokens to kinds -/

theorem numeric_of {a : Byte} {ds : Bytes} (h : ∀ b ∈ a :: ds, Spec.Digit b) (h0 : a ≠ 48) :
    Numeric (a :: ds) := ⟨⟨by simp, h⟩, Or.inr (by simpa using h0)⟩

theorem not_float_of {ds w : Bytes} {c : Byte} (hds : ∀ b ∈ ds, Spec.Digit b) (hc : ¬ Spec.Digit c)
    (hcm : c ≠ 44) : ¬ Spec.Float (ds ++ c :: w) := by
  rintro ⟨n, ds', h, hn, hds'⟩
  have h1 := span_digits hds hc w
  have h2 := span_digits hn.1.2 comma_not_digit ds'
  rw [h, h2.2] at h1
  simp only [List.cons.injEq] at h1
  exact hcm h1.2.1.symm

theorem not_malformed_of {ds w : Bytes} {c : Byte} (hds : ∀ b ∈ ds, Spec.Digit b) (hc : ¬ Spec.Digit c)
    (hcm : c ≠ 44) : ¬ MalformedFloat (ds ++ c :: w) := by
  rintro ⟨n, ds', h, hn⟩
  have h1 := span_digits hds hc w
  have h2 := span_digits (ds := 48 :: n) (by
    intro b hb; simp only [List.mem_cons] at hb
    rcases hb with rfl | hb
    · simp [Spec.Digit]
    · exact hn.2 b hb) comma_not_digit ds'
  rw [h, h2.2] at h1
  simp only [List.cons.injEq] at h1
  exact hcm h1.2.1.symm

theorem alnum_kind {pos : Nat} {v : Bytes} (h : Alnum v) (hm : ¬ MalformedFloat v) :
    Kind pos (if hasNL v then .text else .alphaNumeric) v := by
  by_cases hn : hasNL v = true
  · simp only [hn, if_true]; exact ⟨h, hm, (hasNL_iff v).1 hn⟩
  · simp only [hn]
    exact ⟨h, hm, fun hh => hn ((hasNL_iff v).2 hh)⟩

theorem not_digitString_of {ds w : Bytes} {c : Byte} (hc : ¬ Spec.Digit c) :
    ¬ DigitString (ds ++ c :: w) := fun h => hc (h.2 c (by simp))

theorem head_ne_64 {ds : Bytes} (hne : ds ≠ []) (hds : ∀ b ∈ ds, Spec.Digit b) (w : Bytes) :
    (ds ++ w).head? ≠ some 64 := by
  cases ds with
  | nil => exact absurd rfl hne
  | cons a ds =>
    have := (digit_plain (Or.inl (hds a (by simp)))).2.2.2
    simpa using this

/-- Alphanumeric text beginning with a digit run followed by no comma. -/
theorem alnum_of_digits {ds w : Bytes} {c : Byte} (hne : ds ≠ []) (hds : ∀ b ∈ ds, Spec.Digit b)
    (hc : ¬ Spec.Digit c) (hcm : c ≠ 44) (hesc : Escaped (c :: w)) :
    Alnum (ds ++ c :: w) ∧ ¬ MalformedFloat (ds ++ c :: w) :=
  ⟨⟨by simp, escaped_prepend (fun x hx => Or.inl (hds x hx)) hesc, head_ne_64 hne hds _,
    not_digitString_of hc, not_float_of hds hc hcm⟩, not_malformed_of hds hc hcm⟩

/-- Alphanumeric text beginning with a float. -/
theorem alnum_of_float {ds ds' w : Bytes} {c : Byte} (hn : Numeric ds) (hds' : ∀ b ∈ ds', Spec.Digit b)
    (hc : ¬ Spec.Digit c) (hesc : Escaped (c :: w)) :
    Alnum (ds ++ 44 :: (ds' ++ c :: w)) ∧ ¬ MalformedFloat (ds ++ 44 :: (ds' ++ c :: w)) := by
  have hall : ∀ x ∈ ds ++ 44 :: ds', Spec.Digit x ∨ x = 44 := by
    intro x hx
    simp only [List.mem_append, List.mem_cons] at hx
    rcases hx with h | h | h
    · exact Or.inl (hn.1.2 x h)
    · exact Or.inr h
    · exact Or.inl (hds' x h)
  have e : ds ++ 44 :: (ds' ++ c :: w) = (ds ++ 44 :: ds') ++ c :: w := by simp
  refine ⟨⟨by simp, ?_, head_ne_64 hn.1.1 hn.1.2 _, ?_, ?_⟩, ?_⟩
  · rw [e]; exact escaped_prepend hall hesc
  · exact not_digitString_of comma_not_digit
  · rintro ⟨n, ds'', h, hn', hds''⟩
    have h1 := span_digits hn.1.2 comma_not_digit (ds' ++ c :: w)
    have h2 := span_digits hn'.1.2 comma_not_digit ds''
    rw [h, h2.2] at h1
    simp only [List.cons.injEq, true_and] at h1
    exact hc (hds'' c (by rw [h1.2]; simp))
  · rintro ⟨n, w', h, hn'⟩
    have h1 := span_digits hn.1.2 comma_not_digit (ds' ++ c :: w)
    have h2 := span_digits (ds := 48 :: n) (by
      intro b hb; simp only [List.mem_cons] at hb
      rcases hb with rfl | hb
      · simp [Spec.Digit]
      · exact hn'.2 b hb) comma_not_digit w'
    rw [h, h2.1] at h1
    have h3 := h1.1
    subst h3
    rcases hn.2 with h | h
    · simp at h; exact hn'.1 h
    · simp at h

theorem kind_of_scanTail_numeric {pos : Nat} {ty t : Typ} {ds : Bytes} {c : Byte} {r : Bytes} {n : Nat}
    (hne : ds ≠ []) (hds : ∀ b ∈ ds, Spec.Digit b) (hc : ¬ Spec.Digit c) (hcm : c ≠ 44)
    (hk : Kind pos ty ds) (h : scanTail ty ds.length (c :: r) = .tok t n) :
    ∃ v d r', ds ++ c :: r = v ++ d :: r' ∧ Delim d ∧ n = v.length ∧ Kind pos t v := by
  obtain ⟨w, d, r', hw, hesc, hd⟩ := scanTail_inv h
  cases w with
  | nil =>
    rw [List.nil_append] at hw
    rw [hw, scanTail_delim hd] at h
    simp only [One.tok.injEq] at h
    exact ⟨ds, d, r', by rw [hw], hd, h.2.symm, h.1 ▸ hk⟩
  | cons c' w =>
    rw [List.cons_append, List.cons.injEq] at hw
    obtain ⟨rfl, hw⟩ := hw
    subst hw
    have h2 := scanTail_escaped (ty := ty) (k := ds.length) hesc (by simp) hd r'
    rw [List.cons_append] at h2
    rw [h2] at h
    simp only [One.tok.injEq] at h
    refine ⟨ds ++ c :: w, d, r', by simp, hd, by rw [← h.2]; simp, ?_⟩
    have hA := alnum_of_digits hne hds hc hcm hesc
    have hnl : hasNL (ds ++ c :: w) = hasNL (c :: w) := hasNL_prepend fun x hx => Or.inl (hds x hx)
    rw [← h.1, ← hnl]
    exact alnum_kind hA.1 hA.2

theorem kind_of_scanTail_float {pos : Nat} {t : Typ} {ds ds' : Bytes} {c : Byte} {r : Bytes} {n : Nat}
    (hn : Numeric ds) (hds' : ∀ b ∈ ds', Spec.Digit b) (hc : ¬ Spec.Digit c)
    (h : scanTail .float (ds.length + 1 + ds'.length) (c :: r) = .tok t n) :
    ∃ v d r', ds ++ 44 :: (ds' ++ c :: r) = v ++ d :: r' ∧ Delim d ∧ n = v.length ∧ Kind pos t v := by
  obtain ⟨w, d, r', hw, hesc, hd⟩ := scanTail_inv h
  cases w with
  | nil =>
    rw [List.nil_append] at hw
    rw [hw, scanTail_delim hd] at h
    simp only [One.tok.injEq] at h
    refine ⟨ds ++ 44 :: ds', d, r', by rw [hw]; simp, hd, by rw [← h.2]; simp; omega, ?_⟩
    rw [← h.1]
    exact ⟨ds, ds', rfl, hn, hds'⟩
  | cons c' w =>
    rw [List.cons_append, List.cons.injEq] at hw
    obtain ⟨rfl, hw⟩ := hw
    subst hw
    have h2 := scanTail_escaped (ty := .float) (k := ds.length + 1 + ds'.length) hesc (by simp) hd r'
    rw [List.cons_append] at h2
    rw [h2] at h
    simp only [One.tok.injEq] at h
    refine ⟨ds ++ 44 :: (ds' ++ c :: w), d, r', by simp, hd, by rw [← h.2]; simp; omega, ?_⟩
    have hA := alnum_of_float hn hds' hc hesc
    have hall : ∀ x ∈ ds ++ 44 :: ds', Spec.Digit x ∨ x = 44 := by
      intro x hx
      simp only [List.mem_append, List.mem_cons] at hx
      rcases hx with h | h | h
      · exact Or.inl (hn.1.2 x h)
      · exact Or.inr h
      · exact Or.inl (hds' x h)
    have hnl : hasNL (ds ++ 44 :: (ds' ++ c :: w)) = hasNL (c :: w) := by
      have := hasNL_prepend (a := ds ++ 44 :: ds') (v := c :: w) hall
      simpa using this
    rw [← h.1, ← hnl]
    exact alnum_kind hA.1 hA.2

theorem kind_of_lexOne {pos : Nat} {rest : Bytes} {t : Typ} {n : Nat} (h : lexOne pos rest = .tok t n) :
    (∃ d r, rest = d :: r ∧ Delim d ∧ n = 1 ∧ t = sepTyp d) ∨
    (∃ v d r, rest = v ++ d :: r ∧ Delim d ∧ n = v.length ∧ Kind pos t v) := by
  cases rest with
  | nil => simp [lexOne] at h
  | cons c rest =>
    by_cases hdel : Delim c
    · left
      rw [lexOne_delim hdel] at h
      simp only [One.tok.injEq] at h
      exact ⟨c, rest, rfl, hdel, h.2.symm, h.1.symm⟩
    right
    by_cases h64 : c = 64
    · subst h64
      have e : lexOne pos (64 :: rest) = scanBinary pos rest := by simp [lexOne]
      rw [e] at h
      unfold scanBinary at h
      dsimp only at h
      rcases span_inv rest with h0 | ⟨ds, c, r, rfl, hds, hc, h1, h2⟩
      · rw [h0] at h
        dsimp only at h
        split at h <;> simp at h
      · rw [h1, h2] at h
        dsimp only at h
        split at h; · simp at h
        rename_i g1
        split at h; · simp at h
        rename_i g2
        split at h; · simp at h
        rename_i g3
        split at h; · simp at h
        rename_i g4
        have hc64 : c = 64 := by simpa using g3
        subst hc64
        rw [decVal_eq] at *
        split at h; · simp at h
        rename_i d r' hd
        split at h
        · rename_i hdd
          simp only [One.tok.injEq] at h
          have hlt : Spec.value ds < r.length := by
            have := congrArg List.length hd
            simp at this; omega
          have hsplit : r = r.take (Spec.value ds) ++ d :: r' := by rw [← hd]; simp
          have hpl : (r.take (Spec.value ds)).length = Spec.value ds := by simp; omega
          refine ⟨64 :: ds ++ 64 :: r.take (Spec.value ds), d, r', ?_, (isDelimiter_iff d).1 hdd, ?_, ?_⟩
          · conv => lhs; rw [hsplit]
            simp
          · simp only [List.length_append, List.length_cons, hpl]; omega
          · rw [← h.1]
            refine ⟨⟨ds, _, rfl, ⟨by simpa using g1, hds⟩, hpl⟩, ?_⟩
            simp only [List.length_append, List.length_cons, hpl]; omega
        · split at h <;> simp at h
    by_cases hz : c = 0
    · subst hz; simp [lexOne] at h
    by_cases hdig : Spec.Digit c
    · by_cases h48 : c = 48
      · subst h48
        cases rest with
        | nil => simp [lexOne_zero, scanDigit] at h
        | cons c rest =>
          by_cases hcd : Delim c
          · rw [lexOne_zero_delim hcd] at h
            simp only [One.tok.injEq] at h
            refine ⟨[48], c, rest, rfl, hcd, by simp [← h.2], ?_⟩
            rw [← h.1]
            exact ⟨⟨by simp, by simp [Spec.Digit]⟩, Or.inl rfl⟩
          · by_cases hcm : c = 44
            · subst hcm
              have hn : Numeric [48] := ⟨⟨by simp, by simp [Spec.Digit]⟩, Or.inl rfl⟩
              rcases span_inv rest with h0 | ⟨ds', c', r, rfl, hds, hc, h1, h2⟩
              · have hcd' : isDelimiter 44 = false := by decide
                simp [lexOne_zero, scanDigit, hcd', h0, scanTail] at h
              · have := lexOne_digits_comma (pos := pos) (r := r) hn hds hc
                rw [List.cons_append, List.nil_append] at this
                rw [this] at h
                exact kind_of_scanTail_float hn hds hc h
            · by_cases hcdig : Spec.Digit c
              · rcases span_inv (c :: rest) with h0 | ⟨ds, c', r, hr, hds, hc, h1, h2⟩
                · have hcd' : isDelimiter c = false := by
                    rw [← Bool.not_eq_true, isDelimiter_iff]; exact hcd
                  have hcm' : (c == 44) = false := by simpa using hcm
                  simp [lexOne_zero, scanDigit, hcd', hcm', h0] at h
                · have hdsne : ds ≠ [] := by
                    rintro rfl
                    rw [List.nil_append, List.cons.injEq] at hr
                    exact hc (hr.1 ▸ hcdig)
                  have hall : ∀ b ∈ 48 :: ds, Spec.Digit b := by
                    intro b hb; simp only [List.mem_cons] at hb
                    rcases hb with rfl | hb
                    · simp [Spec.Digit]
                    · exact hds b hb
                  by_cases hcm' : c' = 44
                  · subst hcm'
                    exfalso
                    have hcd' : isDelimiter c = false := by
                      rw [← Bool.not_eq_true, isDelimiter_iff]; exact hcd
                    have hcm'' : (c == 44) = false := by simpa using hcm
                    simp [lexOne_zero, scanDigit, hcd', hcm'', h2] at h
                  · rw [hr] at h ⊢
                    rw [lexOne_zero_digits ⟨hdsne, hds⟩ hc hcm'] at h
                    have e : 1 + ds.length = (48 :: ds).length := by simp [Nat.add_comm]
                    rw [e] at h
                    exact kind_of_scanTail_numeric (ty := .digit) (ds := 48 :: ds) (by simp) hall hc hcm'
                      ⟨ds, rfl, hdsne, hds⟩ h
              · rw [lexOne_zero_other hcdig hcm hcd] at h
                obtain ⟨w, d, r', hw, hesc, hd⟩ := scanTail_inv h
                cases w with
                | nil =>
                  rw [List.nil_append, List.cons.injEq] at hw
                  exact absurd (hw.1 ▸ hd) hcd
                | cons c' w =>
                  rw [List.cons_append, List.cons.injEq] at hw
                  obtain ⟨rfl, rfl⟩ := hw
                  have h2 := scanTail_escaped (ty := .digit) (k := 1) hesc (by simp) hd r'
                  rw [List.cons_append] at h2
                  rw [h2] at h
                  simp only [One.tok.injEq] at h
                  have hall : ∀ b ∈ ([48] : Bytes), Spec.Digit b := by simp [Spec.Digit]
                  refine ⟨[48] ++ c :: w, d, r', by simp, hd, by rw [← h.2]; simp [Nat.add_comm], ?_⟩
                  have hA := alnum_of_digits (by simp) hall hcdig hcm hesc
                  have hnl : hasNL ([48] ++ c :: w) = hasNL (c :: w) :=
                    hasNL_prepend fun x hx => Or.inl (hall x hx)
                  rw [← h.1, ← hnl]
                  exact alnum_kind hA.1 hA.2
      · rcases span_inv (c :: rest) with h0 | ⟨ds, c', r, hr, hds, hc, h1, h2⟩
        · rw [lexOne_number hdig h48] at h
          simp [scanNumber, h0] at h
        · cases ds with
          | nil =>
            rw [List.nil_append, List.cons.injEq] at hr
            exact absurd (hr.1 ▸ hdig) hc
          | cons a ds =>
            rw [List.cons_append, List.cons.injEq] at hr
            obtain ⟨rfl, rfl⟩ := hr
            have hn := numeric_of hds h48
            rw [← List.cons_append] at h ⊢
            by_cases hcm' : c' = 44
            · subst hcm'
              rcases span_inv r with h0 | ⟨ds', c', r', rfl, hds', hc', _, _⟩
              · rw [List.cons_append, lexOne_number hdig h48] at h
                simp [scanNumber, h2, h0, scanTail] at h
              · rw [lexOne_digits_comma hn hds' hc'] at h
                exact kind_of_scanTail_float hn hds' hc' h
            · rw [lexOne_digits_other hn.1 (by simpa using h48) hc hcm'] at h
              exact kind_of_scanTail_numeric (ty := .numeric) (by simp) hds hc hcm' hn h
    · rw [lexOne_other hdel h64 hz hdig] at h
      obtain ⟨v, d, r, hv, hesc, hd⟩ := scanAlnum_inv h
      cases v with
      | nil =>
        rw [List.nil_append, List.cons.injEq] at hv
        exact absurd (hv.1 ▸ hd) hdel
      | cons c' v =>
        rw [List.cons_append, List.cons.injEq] at hv
        obtain ⟨rfl, rfl⟩ := hv
        have h2 := scanAlnum_escaped hesc 0 false d r hd
        rw [List.cons_append] at h2
        rw [h2] at h
        simp only [One.tok.injEq, Bool.false_or, Nat.zero_add] at h
        refine ⟨c :: v, d, r, by simp, hd, h.2.symm, ?_⟩
        rw [← h.1]
        refine alnum_kind ⟨by simp, hesc, by simpa using h64, fun hh => hdig (hh.2 c (by simp)), ?_⟩ ?_
        · rintro ⟨n', ds, h', hn, _⟩
          cases n' with
          | nil => exact hn.1.1 rfl
          | cons a n' =>
            rw [List.cons_append, List.cons.injEq] at h'
            exact hdig (h'.1 ▸ hn.1.2 a (by simp))
        · rintro ⟨ds, w, h', _⟩
          rw [List.cons_append, List.cons.injEq] at h'
          rw [h'.1] at hdig
          exact hdig (by simp [Spec.Digit])

/-- Locality: appending input after a token changes nothing. -/
theorem lexOne_append {pos : Nat} {rest : Bytes} {t : Typ} {n : Nat}
    (h : lexOne pos rest = .tok t n) (b : Bytes) : lexOne pos (rest ++ b) = .tok t n := by
  rcases kind_of_lexOne h with ⟨d, r, rfl, hd, rfl, rfl⟩ | ⟨v, d, r, rfl, hd, rfl, hk⟩
  · exact lexOne_delim hd _
  · rw [List.append_assoc, List.cons_append]; exact lexOne_of_kind hk hd _

/-! ## Drains -/

/-- Tokens delivered before the end, whatever the end. -/
def Drain.toks : Drain → List Token
  | .done ts => ts
  | .panic ts => ts
  | .blocked ts => ts
  | .timeout ts => ts

/-- Prepend a list of delivered tokens. -/
def Drain.prepend (ts : List Token) (d : Drain) : Drain := ts.foldr Drain.cons d

@[simp] theorem Drain.prepend_nil (d : Drain) : Drain.prepend [] d = d := rfl
@[simp] theorem Drain.prepend_cons (t : Token) (ts : List Token) (d : Drain) :
    Drain.prepend (t :: ts) d = (Drain.prepend ts d).cons t := rfl
theorem Drain.prepend_append (a b : List Token) (d : Drain) :
    Drain.prepend (a ++ b) d = Drain.prepend a (Drain.prepend b d) := by
  simp [Drain.prepend]
@[simp] theorem Drain.prepend_done (ts us : List Token) :
    Drain.prepend ts (.done us) = .done (ts ++ us) := by
  induction ts with
  | nil => rfl
  | cons t ts ih => simp [ih, Drain.cons]
@[simp] theorem Drain.prepend_panic (ts us : List Token) :
    Drain.prepend ts (.panic us) = .panic (ts ++ us) := by
  induction ts with
  | nil => rfl
  | cons t ts ih => simp [ih, Drain.cons]

theorem Drain.cons_eq_done {d : Drain} {t : Token} {ts : List Token} (h : d.cons t = .done ts) :
    ∃ us, d = .done us ∧ ts = t :: us := by
  cases d <;> simp_all [Drain.cons]
theorem Drain.cons_eq_panic {d : Drain} {t : Token} {ts : List Token} (h : d.cons t = .panic ts) :
    ∃ us, d = .panic us ∧ ts = t :: us := by
  cases d <;> simp_all [Drain.cons]

@[simp] theorem values_nil : values [] = [] := rfl
@[simp] theorem values_cons (t : Token) (ts : List Token) : values (t :: ts) = t.val ++ values ts := rfl
@[simp] theorem values_append (a b : List Token) : values (a ++ b) = values a ++ values b := by
  simp [values]

/-- The scan of `a` reaches its end at a token boundary, delivering `ts`. -/
inductive Clean : Nat → Bytes → List Token → Prop where
  | nil (pos : Nat) : Clean pos [] []
  | cons {pos : Nat} {rest : Bytes} {t : Typ} {n : Nat} {ts : List Token} :
      lexOne pos rest = .tok t n → Clean (pos + n) (rest.drop n) ts →
      Clean pos rest (⟨t, rest.take n, pos⟩ :: ts)

/-- Compositionality: a cleanly scanned prefix does not influence the rest. -/
theorem Clean.scan_append {pos : Nat} {a : Bytes} {ts : List Token} (h : Clean pos a ts) (b : Bytes) :
    scan pos (a ++ b) = Drain.prepend ts (scan (pos + a.length) b) := by
  induction h with
  | nil pos => simp
  | cons h1 _ ih =>
    have hn := lexOne_tok h1
    rw [scan_eq, lexOne_append h1]
    dsimp only
    rw [List.drop_append_of_le_length hn.2, List.take_append_of_le_length hn.2, ih,
      Drain.prepend_cons]
    congr 3
    simp; omega

theorem Clean.append {pos : Nat} {a b : Bytes} {ts us : List Token} (h : Clean pos a ts)
    (h2 : Clean (pos + a.length) b us) : Clean pos (a ++ b) (ts ++ us) := by
  induction h with
  | nil pos => simpa using h2
  | @cons pos rest t n ts h1 _ ih =>
    have hn := lexOne_tok h1
    have e : (⟨t, rest.take n, pos⟩ : Token) = ⟨t, (rest ++ b).take n, pos⟩ := by
      rw [List.take_append_of_le_length hn.2]
    rw [List.cons_append, e]
    refine Clean.cons (lexOne_append h1 b) ?_
    rw [List.drop_append_of_le_length hn.2]
    apply ih
    have : pos + n + (List.drop n rest).length = pos + rest.length := by simp; omega
    rw [this]
    exact h2

theorem Clean.values_eq {pos : Nat} {a : Bytes} {ts : List Token} (h : Clean pos a ts) :
    values ts = a := by
  induction h with
  | nil => rfl
  | cons _ _ ih => simp [ih]

theorem Clean.scan_eq_done {pos : Nat} {a : Bytes} {ts : List Token} (h : Clean pos a ts) :
    scan pos a = .done (ts ++ [⟨.eof, [], pos + a.length⟩]) := by
  have := h.scan_append []
  rw [List.append_nil] at this
  rw [this, scan_eq]
  simp [lexOne]

/-- How a scan can end. -/
inductive Ending : Nat → Bytes → Drain → Prop where
  | eof (pos : Nat) : Ending pos [] (.done [⟨.eof, [], pos⟩])
  | nul (pos : Nat) (r : Bytes) : Ending pos (0 :: r) (.done [⟨.eof, [0], pos⟩])
  | err (pos : Nat) (r : Bytes) (m : Bytes) : lexOne pos r = .err m →
      Ending pos r (.done [⟨.error, m, pos⟩])
  | panic (pos : Nat) (r : Bytes) : lexOne pos r = .panic → Ending pos r (.panic [])

theorem scan_decompose (pos : Nat) (rest : Bytes) :
    ∃ a b ts d, rest = a ++ b ∧ Clean pos a ts ∧ Ending (pos + a.length) b d ∧
      scan pos rest = Drain.prepend ts d := by
  induction pos, rest using scan_induction with
  | h pos rest ih =>
    rw [scan_eq]
    cases h : lexOne pos rest with
    | tok t k =>
      obtain ⟨a, b, ts, d, h1, h2, h3, h4⟩ := ih t k h
      have hk := lexOne_tok h
      -- the token ends before a delimiter inside `rest`, the clean prefix is extended
      refine ⟨rest.take k ++ a, b, ⟨t, rest.take k, pos⟩ :: ts, d, ?_, ?_, ?_, ?_⟩
      · rw [List.append_assoc, ← h1, List.take_append_drop]
      · by_cases hc : lexOne pos (rest.take k ++ a) = .tok t k
        · have := Clean.cons hc (ts := ts) (by
            rw [List.drop_append_of_le_length (by simp; omega)]
            simpa using h2)
          have e : (rest.take k ++ a).take k = rest.take k := by
            rw [List.take_append_of_le_length (by simp; omega), List.take_take, Nat.min_self]
          rwa [e] at this
        · exfalso
          rcases kind_of_lexOne h with ⟨e, r, rfl, he, rfl, rfl⟩ | ⟨v, e, r, rfl, he, rfl, hk'⟩
          · exact hc (by simpa using lexOne_delim he a)
          · rw [List.take_left] at hc
            rw [List.drop_left] at h1
            cases a with
            | nil =>
              rw [List.nil_append] at h1
              subst h1
              have := lexOne_delim (pos := pos + v.length) he r
              cases h3 with
              | nul => rcases he with h | h | h <;> simp at h
              | err _ m hm => simp [this] at hm
              | panic _ hm => simp [this] at hm
            | cons e' a =>
              rw [List.cons_append, List.cons.injEq] at h1
              exact hc (by rw [← h1.1]; exact lexOne_of_kind hk' he a)
      · have : pos + (List.take k rest ++ a).length = pos + k + a.length := by simp; omega
        rw [this]; exact h3
      · simp only [h4, Drain.prepend_cons]
    | stop k =>
      rcases lexOne_stop h with ⟨rfl, rfl⟩ | ⟨r, rfl, rfl⟩
      · exact ⟨[], [], [], _, rfl, .nil _, .eof _, by simp⟩
      · exact ⟨[], 0 :: r, [], _, rfl, .nil _, .nul _ _, by simp⟩
    | err m => exact ⟨[], rest, [], _, rfl, .nil _, .err _ _ m h, by simp⟩
    | panic => exact ⟨[], rest, [], _, rfl, .nil _, .panic _ _ h, by simp⟩

/-! ## Consequences for whole inputs -/

theorem Drain.toks_prepend (ts : List Token) (d : Drain) :
    (Drain.prepend ts d).toks = ts ++ d.toks := by
  induction ts with
  | nil => rfl
  | cons t ts ih =>
    rw [Drain.prepend_cons]
    cases h : Drain.prepend ts d <;> rw [h] at ih <;> simp_all [Drain.cons, Drain.toks]

/-- The classes tokens of a clean scan belong to. -/
theorem Clean.mem {pos : Nat} {a : Bytes} {ts : List Token} (h : Clean pos a ts) :
    ∀ t ∈ ts, (∃ d, Delim d ∧ t.val = [d] ∧ t.typ = sepTyp d) ∨ Kind t.pos t.typ t.val := by
  induction h with
  | nil => simp
  | cons h1 _ ih =>
    intro t ht
    simp only [List.mem_cons] at ht
    rcases ht with rfl | ht
    · rcases kind_of_lexOne h1 with ⟨d, r, rfl, hd, rfl, rfl⟩ | ⟨v, d, r, rfl, hd, rfl, hk⟩
      · exact Or.inl ⟨d, hd, by simp, rfl⟩
      · right; simpa using hk
    · exact ih t ht

theorem sepTyp_ne (d : Byte) : sepTyp d ≠ .error ∧ sepTyp d ≠ .eof := by
  unfold sepTyp; split <;> (try split) <;> simp

theorem Clean.not_end {pos : Nat} {a : Bytes} {ts : List Token} (h : Clean pos a ts) :
    ∀ t ∈ ts, t.typ ≠ .error ∧ t.typ ≠ .eof := by
  intro t ht
  rcases h.mem t ht with ⟨d, _, _, h⟩ | h
  · rw [h]; exact sepTyp_ne d
  · constructor <;> (intro e; rw [e] at h; exact h)

theorem Clean.placed {pos : Nat} {a : Bytes} {ts : List Token} (h : Clean pos a ts) :
    ∀ before t after, ts = before ++ t :: after → t.pos = pos + (values before).length := by
  induction h with
  | nil => intro b t a h; simp at h
  | @cons pos rest t n ts h1 _ ih =>
    intro before u after hu
    have hn := lexOne_tok h1
    cases before with
    | nil => simp at hu; rw [← hu.1]; simp
    | cons b before =>
      simp only [List.cons_append, List.cons.injEq] at hu
      have := ih before u after hu.2
      rw [this, ← hu.1]
      simp; omega

theorem Clean.length_le {pos : Nat} {a : Bytes} {ts : List Token} (h : Clean pos a ts) :
    ts.length ≤ a.length := by
  induction h with
  | nil => simp
  | cons h1 _ ih =>
    have hn := lexOne_tok h1
    simp at ih ⊢; omega

/-- In a clean scan every token that is no delimiter is followed by a delimiter. -/
theorem Clean.followed {pos : Nat} {a : Bytes} {ts : List Token} (h : Clean pos a ts) :
    ∀ before t after, ts = before ++ t :: after → t.isSyntaxSymbol = false →
      ∃ s after', after = s :: after' ∧ s.isSyntaxSymbol = true := by
  induction h with
  | nil => intro b t a h; simp at h
  | @cons pos rest t n ts h1 h2 ih =>
    intro before u after hu hs
    cases before with
    | nil =>
      simp only [List.nil_append, List.cons.injEq] at hu
      obtain ⟨rfl, rfl⟩ := hu
      rcases kind_of_lexOne h1 with ⟨d, r, rfl, hd, rfl, rfl⟩ | ⟨v, d, r, rfl, hd, rfl, hk⟩
      · exfalso
        rcases hd with rfl | rfl | rfl <;> simp [sepTyp, Token.isSyntaxSymbol] at hs
      · rw [List.drop_left] at h2
        cases h2 with
        | cons h3 h4 =>
          rw [lexOne_delim hd] at h3
          simp only [One.tok.injEq] at h3
          refine ⟨_, _, rfl, ?_⟩
          rw [← h3.1]
          rcases hd with rfl | rfl | rfl <;> simp [sepTyp, Token.isSyntaxSymbol]
    | cons b before =>
      simp only [List.cons_append, List.cons.injEq] at hu
      exact ih before u after hu.2 hs

theorem prepend_eq_done {ts us : List Token} {d : Drain} (h : Drain.prepend ts d = .done us) :
    ∃ vs, d = .done vs ∧ us = ts ++ vs := by
  induction ts generalizing us with
  | nil => exact ⟨us, h, rfl⟩
  | cons t ts ih =>
    rw [Drain.prepend_cons] at h
    obtain ⟨vs, h1, rfl⟩ := Drain.cons_eq_done h
    obtain ⟨ws, h2, rfl⟩ := ih h1
    exact ⟨ws, h2, rfl⟩

theorem prepend_eq_panic {ts us : List Token} {d : Drain} (h : Drain.prepend ts d = .panic us) :
    ∃ vs, d = .panic vs ∧ us = ts ++ vs := by
  induction ts generalizing us with
  | nil => exact ⟨us, h, rfl⟩
  | cons t ts ih =>
    rw [Drain.prepend_cons] at h
    obtain ⟨vs, h1, rfl⟩ := Drain.cons_eq_panic h
    obtain ⟨ws, h2, rfl⟩ := ih h1
    exact ⟨ws, h2, rfl⟩

/-- How draining can end, with the cleanly scanned prefix. -/
theorem lex_done_inv {input : Bytes} {ts : List Token} (h : lex input = .done ts) :
    ∃ a b us last, input = a ++ b ∧ Clean 0 a us ∧ ts = us ++ [last] ∧ last.pos = a.length ∧
      ((b = [] ∧ last.typ = .eof ∧ last.val = []) ∨
       (b.head? = some 0 ∧ last.typ = .eof ∧ last.val = [0]) ∨
       (last.typ = .error ∧ lexOne a.length b = .err last.val)) := by
  rw [lex_eq_scan] at h
  obtain ⟨a, b, us, d, rfl, h2, h3, h4⟩ := scan_decompose 0 input
  rw [h] at h4
  obtain ⟨vs, h5, rfl⟩ := prepend_eq_done h4.symm
  rw [Nat.zero_add] at h3
  cases h3 with
  | eof => cases h5; exact ⟨a, [], us, _, rfl, h2, rfl, rfl, Or.inl ⟨rfl, rfl, rfl⟩⟩
  | nul r => cases h5; exact ⟨a, _, us, _, rfl, h2, rfl, rfl, Or.inr (Or.inl ⟨rfl, rfl, rfl⟩)⟩
  | err _ m hm => cases h5; exact ⟨a, _, us, _, rfl, h2, rfl, rfl, Or.inr (Or.inr ⟨rfl, hm⟩)⟩
  | panic => cases h5

theorem lex_panic_inv {input : Bytes} {ts : List Token} (h : lex input = .panic ts) :
    ∃ a b, input = a ++ b ∧ Clean 0 a ts ∧ lexOne a.length b = .panic := by
  rw [lex_eq_scan] at h
  obtain ⟨a, b, us, d, rfl, h2, h3, h4⟩ := scan_decompose 0 input
  rw [h] at h4
  obtain ⟨vs, h5, rfl⟩ := prepend_eq_panic h4.symm
  rw [Nat.zero_add] at h3
  cases h3 with
  | eof => cases h5
  | nul r => cases h5
  | err _ m hm => cases h5
  | panic _ hp => cases h5; exact ⟨a, b, rfl, by simpa using h2, hp⟩

theorem lex_done_or_panic (input : Bytes) :
    (∃ ts, lex input = .done ts) ∨ (∃ ts, lex input = .panic ts) := by
  rw [lex_eq_scan]
  obtain ⟨a, b, us, d, rfl, h2, h3, h4⟩ := scan_decompose 0 input
  rw [h4]
  cases h3 with
  | panic => right; exact ⟨us, by simp⟩
  | _ => left; exact ⟨_, Drain.prepend_done _ _⟩

/-- A clean scan is one that ends with an empty EOF token. -/
theorem clean_iff {a : Bytes} {ts : List Token} :
    Clean 0 a ts ↔ ∃ p, lex a = .done (ts ++ [⟨.eof, [], p⟩]) := by
  constructor
  · intro h
    exact ⟨_, by rw [lex_eq_scan]; exact h.scan_eq_done⟩
  · rintro ⟨p, h⟩
    obtain ⟨a', b, us, last, rfl, h2, h3, _, h4⟩ := lex_done_inv h
    have h5 := List.append_inj' h3 rfl
    obtain ⟨rfl, h6⟩ := h5
    simp only [List.cons.injEq, and_true] at h6
    subst h6
    rcases h4 with ⟨rfl, _, _⟩ | ⟨_, _, h⟩ | ⟨h, _⟩
    · simpa using h2
    · simp at h
    · simp at h

theorem lexOne_panic_iff {pos : Nat} {b : Bytes} :
    lexOne pos b = .panic ↔ (b = [64] ∨ ∃ ds r, b = 64 :: ds ++ 64 :: r ∧ DigitString ds ∧
      Spec.value ds < 2 ^ 63 ∧ 2 ^ 63 ≤ pos + 2 + ds.length + Spec.value ds) := by
  constructor
  · intro h
    cases b with
    | nil => simp [lexOne] at h
    | cons c rest =>
      have ha : ∀ k text l, scanAlnum k text l ≠ .panic := by
        intro k text l
        fun_induction scanAlnum k text l <;> simp_all
      have ht : ∀ t k l, scanTail t k l ≠ .panic := by
        intro t k l
        unfold scanTail
        repeat' split
        all_goals simp_all
      simp only [lexOne] at h
      split at h; · simp at h
      split at h; · simp at h
      split at h; · simp at h
      split at h
      · rename_i hc
        have hc : c = 64 := by simpa using hc
        subst hc
        unfold scanBinary at h
        dsimp only at h
        rcases digits_cases rest with ⟨h1, h2⟩ | ⟨c, r, h1, hc, h2⟩
        · rw [h1] at h
          dsimp only at h
          split at h
          · rename_i hl
            left
            have : rest.takeWhile isDig = [] := by simpa using hl
            rw [h2, this]
          · simp at h
          · simp at h
        · rw [h1] at h
          dsimp only at h
          have hall : ∀ d ∈ rest.takeWhile isDig, Spec.Digit d :=
            fun d hd => (isDigit_spec d).1 (takeWhile_all d hd)
          generalize rest.takeWhile isDig = ds at *
          split at h; · simp at h
          rename_i g1
          split at h; · simp at h
          rename_i g2
          split at h; · simp at h
          rename_i g3
          split at h
          · rename_i g4
            right
            have hc64 : c = 64 := by simpa using g3
            subst hc64
            rw [decVal_eq] at g2 g4
            exact ⟨ds, r, by rw [h2]; simp, ⟨by simpa using g1, hall⟩, by omega, by omega⟩
          · split at h
            · simp at h
            · split at h
              · simp at h
              · split at h <;> simp at h
      split at h; · simp at h
      split at h
      · unfold scanDigit at h
        repeat' (split at h)
        all_goals simp_all
      split at h
      · unfold scanNumber at h
        dsimp only at h
        repeat' (split at h)
        all_goals simp_all
      · exact absurd h (ha _ _ _)
  · rintro (rfl | ⟨ds, r, rfl, h1, h2, h3⟩)
    · simp [lexOne, scanBinary]
    · have h64 : ¬ Spec.Digit 64 := by simp [Spec.Digit]
      obtain ⟨g1, g2⟩ := span_digits h1.2 h64 r
      have e : 64 :: ds ++ 64 :: r = 64 :: (ds ++ 64 :: r) := by simp
      have hl : lexOne pos (64 :: (ds ++ 64 :: r)) = scanBinary pos (ds ++ 64 :: r) := by simp [lexOne]
      rw [e, hl]
      unfold scanBinary
      dsimp only
      rw [g1, g2]
      dsimp only
      have hne : ds.length ≠ 0 := by simpa using h1.1
      rw [decVal_eq, if_neg hne, if_neg (by omega), if_neg (by decide), if_pos (by omega)]

/-- Moving a token by an offset. -/
def Token.shift (k : Nat) (t : Token) : Token := { t with pos := t.pos + k }

theorem Kind.move {pos pos' : Nat} {t : Typ} {v : Bytes} (h : Kind pos t v) (hp : pos' + v.length < 2 ^ 63) :
    Kind pos' t v := by
  cases t <;> simp_all [Kind]

/-- A clean scan does not depend on where it starts (below 2^63). -/
theorem Clean.move {pos : Nat} {a : Bytes} {ts : List Token} (h : Clean pos a ts) :
    ∀ k, pos + k + a.length < 2 ^ 63 → Clean (pos + k) a (ts.map (Token.shift k)) := by
  induction h with
  | nil => intro k _; exact .nil _
  | @cons pos rest t n ts h1 _ ih =>
    intro k hk
    have hn := lexOne_tok h1
    have h2 := ih k (by simp; omega)
    rw [List.map_cons]
    refine Clean.cons ?_ ?_
    · rcases kind_of_lexOne h1 with ⟨d, r, rfl, hd, rfl, rfl⟩ | ⟨v, d, r, rfl, hd, rfl, hk'⟩
      · exact lexOne_delim hd _
      · exact lexOne_of_kind (hk'.move (by simp at hk; omega)) hd _
    · have e : pos + k + n = pos + n + k := by omega
      rw [e]; exact h2

/-- A value of a token class and a delimiter after a clean prefix. -/
theorem clean_value {pos : Nat} {t : Typ} {v : Bytes} (hk : Kind pos t v) {d : Byte} (hd : Delim d) :
    Clean pos (v ++ [d]) [⟨t, v, pos⟩, ⟨sepTyp d, [d], pos + v.length⟩] := by
  have h1 := lexOne_of_kind hk hd []
  have h2 : Clean (pos + v.length) [d] [⟨sepTyp d, [d], pos + v.length⟩] := by
    have := Clean.cons (lexOne_delim (pos := pos + v.length) hd []) (ts := []) (by simpa using Clean.nil _)
    simpa using this
  have := Clean.cons h1 (ts := [⟨sepTyp d, [d], pos + v.length⟩]) (by simpa using h2)
  simpa using this

theorem clean_delim {pos : Nat} {d : Byte} (hd : Delim d) :
    Clean pos [d] [⟨sepTyp d, [d], pos⟩] := by
  have := Clean.cons (lexOne_delim (pos := pos) hd []) (ts := []) (by simpa using Clean.nil _)
  simpa using this

end Verif.Token

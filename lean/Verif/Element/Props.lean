import Verif.Element.MoreLemmas
import Verif.Token.Props

/-
Properties of data elements (C04–C12, C50, C62, C63).
-/

namespace Verif.Element

open GoLib Charset Spec Verif.Token.Spec Token

/-! ## C50: Latin-1 -/

/-- C50: decoding never fails and encoding the result returns the same bytes. -/
theorem C50_bytes (b : Bytes) : toISO (toUTF8 b) = .ok b := by
  rw [toISO_ok (latin1_toUTF8 b), enc_toUTF8]

/-- C50: encoding succeeds exactly for Latin-1 text, decoding the result returns
the same text, and otherwise it panics. -/
theorem C50_text (s : Str) :
    (Latin1 s ∧ ∃ b, toISO s = .ok b ∧ toUTF8 b = s ∧ b.length = s.length) ∨
    (¬ Latin1 s ∧ toISO s = .panic) := by
  by_cases h : Latin1 s
  · exact Or.inl ⟨h, enc s, toISO_ok h, toUTF8_enc h, by simp [enc]⟩
  · exact Or.inr ⟨h, toISO_panic h⟩

example : toISO c!"Größe" = .ok [71, 114, 246, 223, 101] := by decide
example : toISO c!"10 €" = .panic := by decide
example : toUTF8 [0, 65, 255] = ['\x00', 'A', 'ÿ'] := by decide

/-! ## C04: escaping -/

/-- C04: unescaping an escaped text returns it. -/
theorem C04_roundtrip (s : Str) : unescape (escape s) = s := unescape_escape s

/-- C04: different texts have different escaped forms. -/
theorem C04_injective {s t : Str} (h : escape s = escape t) : s = t := by
  rw [← unescape_escape s, h, unescape_escape]

/-- C04: what escaping does, character by character. -/
theorem C04_shape (s : Str) :
    escape s = (s.map fun c => if Special c then ['?', c] else [c]).flatten := by
  rw [escape, List.flatMap_def]
  congr 1
  apply List.map_congr_left
  intro c _
  by_cases h : Special c
  · simp [h, (special_iff c).2 h]
  · have : special c = false := by rw [← Bool.not_eq_true, special_iff]; exact h
    simp [h, this]

example : escape c!"a+b?'c@:" = c!"a?+b???'c?@?:" := by decide
example : unescape c!"a?+b???'c?@?:" = c!"a+b?'c@:" := by decide
/-- An escape character before an ordinary one is kept. -/
example : unescape c!"a?bc?" = c!"a?bc?" := by decide

/-! ## C05: a text value is one token -/

/-- C05: after any completely tokenised prefix, before any delimiter and any
remainder, the marshalled text is delivered as one token exactly if the text is
not empty, contains no NUL and does not look like a malformed number. -/
theorem C05_one_token_iff {s : Str} {e a rest : Bytes} {d : Byte} {ts : List Token}
    (hm : marshalText s = .ok e) (ha : Tokenises a ts) (hd : Delim d) (hl : (a ++ e).length < 2 ^ 63) :
    (∃ t more, t.typ ≠ .eof ∧ t.typ ≠ .error ∧ t.val = e ∧
      (lex (a ++ e ++ d :: rest)).toks = ts ++ t :: more) ↔
    s ≠ [] ∧ '\x00' ∉ s ∧ ¬ LikeMalformedFloat s := by
  obtain ⟨hlat, rfl⟩ := toISO_eq_ok.1 hm
  rw [escape_latin1] at hlat
  rw [← text_value_iff hlat]
  have hc := clean_iff.2 ha
  have hlex : (lex (a ++ enc (escape s) ++ d :: rest)).toks =
      ts ++ (scan a.length (enc (escape s) ++ d :: rest)).toks := by
    rw [lex_eq_scan, List.append_assoc, hc.scan_append, Drain.toks_prepend, Nat.zero_add]
  rw [List.length_append] at hl
  rw [hlex]
  constructor
  · rintro ⟨t, more, h1, h2, h3, h4⟩
    have h5 := List.append_cancel_left h4
    rw [scan_eq] at h5
    cases hb : lexOne a.length (enc (escape s) ++ d :: rest) with
    | tok ty n =>
      rw [hb] at h5
      have e1 : (⟨ty, (enc (escape s) ++ d :: rest).take n, a.length⟩ : Token) = t := by
        dsimp only at h5
        cases hx : scan (a.length + n) ((enc (escape s) ++ d :: rest).drop n) <;>
          rw [hx] at h5 <;> simp [Drain.cons, Drain.toks] at h5 <;> exact h5.1
      rw [← e1] at h3
      simp only at h3
      rcases kind_of_lexOne hb with ⟨d', r, he, hd', hn, _⟩ | ⟨v, d', r, he, _, hn, hk⟩
      · exfalso
        rw [he, hn] at h3
        simp at h3
        have hh := enc_escape_head s hlat
        cases s with
        | nil => simp [escape, enc] at h3
        | cons c s =>
          rw [escape_cons, enc_append] at h3
          have hcl := hlat c (by simp)
          by_cases hs : special c = true
          · rw [if_pos hs] at h3
            simp [enc] at h3
          · rw [if_neg hs] at h3
            simp only [enc, List.map_cons, List.map_nil, List.cons_append, List.nil_append, List.cons.injEq] at h3
            apply hs
            rw [special_iff, special_byte hcl, ← h3.1]
            exact Or.inl hd'
      · rw [he, hn] at h3
        simp at h3
        rw [← h3]
        exact value_of_kind hk
    | stop n =>
      rw [hb] at h5
      simp [Drain.toks] at h5
      rw [← h5.1] at h1
      exact absurd rfl h1
    | err m =>
      rw [hb] at h5
      simp [Drain.toks] at h5
      rw [← h5.1] at h2
      exact absurd rfl h2
    | panic =>
      rw [hb] at h5
      simp [Drain.toks] at h5
  · intro hv
    obtain ⟨t, hk⟩ := kind_of_value hv hl
    have hcv := clean_value hk hd
    have e2 : enc (escape s) ++ d :: rest = (enc (escape s) ++ [d]) ++ rest := by simp
    rw [e2, hcv.scan_append, Drain.toks_prepend]
    exact ⟨⟨t, enc (escape s), a.length⟩, _, (kind_not_sep hk 0).2.2, (kind_not_sep hk 0).2.1, rfl, rfl⟩

/-- C05: and it is followed by the delimiter token. -/
theorem C05_followed {s : Str} {e a : Bytes} {d : Byte} {ts : List Token}
    (hm : marshalText s = .ok e) (ha : Tokenises a ts) (hd : Delim d) (hl : (a ++ e).length < 2 ^ 63)
    (hs : s ≠ [] ∧ '\x00' ∉ s ∧ ¬ LikeMalformedFloat s) :
    ∃ t sep, t.val = e ∧ t.isSyntaxSymbol = false ∧ sep.val = [d] ∧ sep.isSyntaxSymbol = true ∧
      Tokenises (a ++ e ++ [d]) (ts ++ [t, sep]) := by
  obtain ⟨hlat, rfl⟩ := toISO_eq_ok.1 hm
  rw [escape_latin1] at hlat
  have hv := (text_value_iff hlat).2 hs
  rw [List.length_append] at hl
  obtain ⟨t, hk⟩ := kind_of_value hv hl
  have hc := (clean_iff.2 ha).append (by simpa using clean_value hk hd)
  refine ⟨⟨t, _, a.length⟩, ⟨sepTyp d, [d], a.length + (enc (escape s)).length⟩, rfl,
    (kind_not_sep hk _).1, rfl, ?_, ?_⟩
  · rcases hd with rfl | rfl | rfl <;> rfl
  · rw [List.append_assoc]; exact clean_iff.1 hc

example : marshalText c!"5+5: 'ok?'" = .ok b!"5?+5?: ?'ok???'" ∧
    (lex (b!"A:" ++ b!"5?+5?: ?'ok???'" ++ b!"'")).toks =
      [⟨.alphaNumeric, b!"A", 0⟩, ⟨.groupDataElementSeparator, b!":", 1⟩,
       ⟨.alphaNumeric, b!"5?+5?: ?'ok???'", 2⟩, ⟨.segmentEndMarker, b!"'", 17⟩, ⟨.eof, [], 18⟩] := by decide
/-- The exceptions are real. -/
example : marshalText c!"007,5" = .ok b!"007,5" ∧ (lex b!"007,5+").toks = [⟨.error, b!"Malformed float", 0⟩] := by
  decide
example : (lex b!"a\x00b+").toks = [⟨.error, b!"Unexpected end of input", 0⟩] := by decide

/-! ## C06: text elements on the wire -/

/-- C06: marshalling succeeds exactly for Latin-1 text; then unmarshalling
returns the text, and one byte per character plus one per special character was
used.  Otherwise marshalling panics. -/
theorem C06_text (s : Str) :
    (Latin1 s ∧ ∃ b, marshalText s = .ok b ∧ unmarshalText b = s ∧
      b.length = s.length + (s.filter fun c => decide (Special c)).length) ∨
    (¬ Latin1 s ∧ marshalText s = .panic) := by
  by_cases h : Latin1 s
  · refine Or.inl ⟨h, enc (escape s), toISO_ok (escape_latin1.2 h), ?_, ?_⟩
    · unfold unmarshalText
      rw [toUTF8_enc (escape_latin1.2 h), unescape_escape]
    · clear h
      induction s with
      | nil => rfl
      | cons c s ih =>
        rw [escape_cons, enc_append, List.length_append, ih]
        by_cases hc : Special c
        · have := (special_iff c).2 hc
          simp [this, hc, enc]; omega
        · have : special c = false := by rw [← Bool.not_eq_true, special_iff]; exact hc
          simp [this, hc, enc]; omega
  · exact Or.inr ⟨h, toISO_panic fun hl => h (escape_latin1.1 hl)⟩

/-- C06: marshalling loses nothing. -/
theorem C06_injective {s t : Str} {b : Bytes} (hs : marshalText s = .ok b) (ht : marshalText t = .ok b) : s = t := by
  rcases C06_text s with ⟨_, b1, h1, h2, _⟩ | ⟨_, h⟩
  · rcases C06_text t with ⟨_, b2, h3, h4, _⟩ | ⟨_, h⟩
    · rw [hs] at h1; rw [ht] at h3
      simp at h1 h3
      rw [← h2, ← h4, ← h1, ← h3]
    · rw [ht] at h; simp at h
  · rw [hs] at h; simp at h

example : marshalText c!"Müller+Söhne" = .ok (b!"M" ++ [252] ++ b!"ller?+S" ++ [246] ++ b!"hne") := by decide
example : marshalText c!"5 €" = .panic := by decide

/-! ## C07: binary elements -/

/-- C07: unmarshalling a marshalled binary element returns the data. -/
theorem C07_roundtrip (d : Bytes) (h : d.length ≤ 2 ^ 48) : unmarshalBinary (marshalBinary d) = .ok d := by
  have hno : 64 ∉ natDec d.length := fun hm => by
    have := (natDec_digits d.length).2 64 hm; simp [Digit] at this
  have ha : atoi (natDec d.length) = some (d.length : Int) := by
    rw [atoi_digits (natDec_digits _) (by rw [digitsVal_natDec]; omega), digitsVal_natDec]
  unfold marshalBinary
  rw [unmarshalBinary_eq hno, ha]
  dsimp only
  rw [if_neg (by simp only [maxAlloc]; omega), if_neg]
  · simp
  · rintro ⟨rfl, h2⟩; simp at h2

/-- C07: whatever the bytes, the lexer reads a marshalled binary element followed
by a delimiter as one token. -/
theorem C07_opaque {data a : Bytes} {d : Byte} {ts : List Token} (ha : Tokenises a ts) (hd : Delim d)
    (hl : (a ++ marshalBinary data).length < 2 ^ 63) :
    ∃ sep, sep.val = [d] ∧ sep.isSyntaxSymbol = true ∧
      Tokenises (a ++ marshalBinary data ++ [d]) (ts ++ [⟨.binaryData, marshalBinary data, a.length⟩, sep]) := by
  have hk : Kind a.length .binaryData (marshalBinary data) :=
    ⟨⟨natDec data.length, data, rfl, natDec_digits _, (value_natDec _).symm⟩, by
      rwa [List.length_append] at hl⟩
  have hc := (clean_iff.2 ha).append (by simpa using clean_value hk hd)
  refine ⟨⟨sepTyp d, [d], a.length + (marshalBinary data).length⟩, rfl, ?_, ?_⟩
  · rcases hd with rfl | rfl | rfl <;> rfl
  · rw [List.append_assoc]; exact clean_iff.1 hc

example : marshalBinary b!"a'+@:?\x00b" = b!"@8@a'+@:?\x00b" ∧
    (lex (b!"@8@a'+@:?\x00b" ++ b!"'")).toks =
      [⟨.binaryData, b!"@8@a'+@:?\x00b", 0⟩, ⟨.segmentEndMarker, b!"'", 11⟩, ⟨.eof, [], 12⟩] := by decide

/-! ## C08: binary decoding -/

/-- C08: exactly which inputs decode, and to what: the declared number of bytes,
cut from the rest or padded with zeros. -/
theorem C08_decode_iff (v data : Bytes) :
    unmarshalBinary v = .ok data ↔
    ∃ s rest n, v = 64 :: s ++ 64 :: rest ∧ Decimal s n ∧ 0 ≤ n ∧ n ≤ 2 ^ 48 ∧ (rest ≠ [] ∨ n = 0) ∧
      (data.length : Int) = n ∧ ∃ zeros, data = rest.take n.toNat ++ List.replicate zeros 0 := by
  constructor
  · intro h
    rcases unmarshalBinary_cases v with ⟨s, rest, rfl, hno⟩ | he
    · rw [unmarshalBinary_eq hno] at h
      cases hn : atoi s with
      | none => simp [hn] at h
      | some n =>
        simp only [hn] at h
        split at h
        · simp at h
        · rename_i h1
          simp only [maxAlloc] at h1
          split at h
          · simp at h
          · rename_i h2
            simp only [Outcome.ok.injEq] at h
            refine ⟨s, rest, n, rfl, (decimal_iff.1 hn).1, by omega, by omega, ?_, ?_, _, h.symm⟩
            · by_cases hr : rest = []
              · right; by_contra hne; exact h2 ⟨hr, hne⟩
              · exact Or.inl hr
            · rw [← h]
              simp only [List.length_append, List.length_take, List.length_replicate]
              omega
    · rw [he] at h; simp at h
  · rintro ⟨s, rest, n, rfl, hdec, h1, h2, h3, h4, z, h5⟩
    rw [unmarshalBinary_eq (decimal_no_at hdec), decimal_iff.2 ⟨hdec, by unfold IsInt; omega⟩]
    dsimp only
    rw [if_neg (by simp only [maxAlloc]; omega), if_neg]
    · congr 1
      rw [h5]
      congr 2
      have := congrArg List.length h5
      simp only [List.length_append, List.length_take, List.length_replicate] at this
      omega
    · rintro ⟨hr, hn⟩
      rcases h3 with h3 | h3
      · exact h3 hr
      · exact hn h3

/-- C08: exactly which inputs make the decoder panic. -/
theorem C08_panic_iff (v : Bytes) :
    unmarshalBinary v = .panic ↔
    ∃ s rest n, v = 64 :: s ++ 64 :: rest ∧ Decimal s n ∧ IsInt n ∧ (n < 0 ∨ 2 ^ 48 < n) := by
  constructor
  · intro h
    rcases unmarshalBinary_cases v with ⟨s, rest, rfl, hno⟩ | he
    · rw [unmarshalBinary_eq hno] at h
      cases hn : atoi s with
      | none => simp [hn] at h
      | some n =>
        simp only [hn] at h
        split at h
        · rename_i h1
          exact ⟨s, rest, n, rfl, (decimal_iff.1 hn).1, (decimal_iff.1 hn).2, h1⟩
        · split at h <;> simp at h
    · rw [he] at h; simp at h
  · rintro ⟨s, rest, n, rfl, hdec, hi, h⟩
    rw [unmarshalBinary_eq (decimal_no_at hdec), decimal_iff.2 ⟨hdec, hi⟩]
    dsimp only
    rw [if_pos (by simpa only [maxAlloc] using h)]

/-- Truncated data is not rejected but padded; surplus data is dropped. -/
example : unmarshalBinary b!"@4@ab" = .ok [97, 98, 0, 0] ∧ unmarshalBinary b!"@2@abcd" = .ok b!"ab" ∧
    unmarshalBinary b!"@-1@ab" = .panic ∧ unmarshalBinary b!"@4@" = .err := by decide

/-! ## C09: numbers -/

/-- C09: every int survives as a number element. -/
theorem C09_number (n : Int) (h : IsInt n) : unmarshalNumber (marshalNumber n) = .ok n := by
  unfold unmarshalNumber marshalNumber
  rw [atoi_itoa n h.1 h.2]; rfl

/-- C09: a non-negative digit element is its decimal notation, filled with zeros
on the left to the width, and denotes the same number. -/
theorem C09_digit (n w : Nat) :
    DigitString (marshalDigit n w) ∧ value (marshalDigit n w) = n ∧
    (marshalDigit n w).length = max w (marshalNumber n).length ∧
    ∃ zeros, marshalDigit n w = List.replicate zeros 48 ++ marshalNumber n := by
  unfold marshalDigit zeroPad marshalNumber itoa
  simp only [Int.natAbs_natCast]
  rw [if_neg (by omega), if_neg (by omega)]
  refine ⟨zeros_digits (natDec_digits n), ?_, ?_, _, rfl⟩
  · rw [← digitsVal_eq, digitsVal_zeros, digitsVal_natDec]
  · simp; omega

/-- C09: a digit element of any value and width is read back. -/
theorem C09_digit_roundtrip (n : Int) (w : Nat) (h : IsInt n) : unmarshalNumber (marshalDigit n w) = .ok n := by
  unfold unmarshalNumber marshalDigit
  rw [atoi_zeroPad w n h]; rfl

/-- C09: exactly what is accepted as a number. -/
theorem C09_accepts (b : Bytes) (n : Int) : unmarshalNumber b = .ok n ↔ Decimal b n ∧ IsInt n := by
  unfold unmarshalNumber
  rw [← decimal_iff]
  cases atoi b <;> simp

/-- C09, country codes: a text that is no number is no error; the receiver stays
as it was. -/
theorem C09_country (b : Bytes) :
    (∃ n, Decimal b n ∧ IsInt n ∧ unmarshalCountry b = .ok (some n)) ∨
    ((∀ n, Decimal b n → ¬ IsInt n) ∧ unmarshalCountry b = .ok none) := by
  unfold unmarshalCountry
  cases h : atoi b with
  | some n => exact Or.inl ⟨n, (decimal_iff.1 h).1, (decimal_iff.1 h).2, rfl⟩
  | none =>
    refine Or.inr ⟨fun n h1 h2 => ?_, rfl⟩
    rw [decimal_iff.2 ⟨h1, h2⟩] at h; simp at h

example : IsInt (-9223372036854775808) ∧ marshalNumber (-42) = b!"-42" ∧ marshalDigit 42 5 = b!"00042" ∧
    marshalDigit 123456 3 = b!"123456" := by unfold IsInt; decide
example : unmarshalCountry b!"DE" = .ok none := by decide

/-! ## C10: dates and times -/

/-- C10: exactly the eight digit texts that denote an existing date decode, to
midnight of that date. -/
theorem C10_date_iff (v : Bytes) (t : Time.Civil) :
    unmarshalDate v = .ok t ↔
      v.length = 8 ∧ (∀ b ∈ v, Digit b) ∧
      (value v : Int) = t.year * 10000 + t.month * 100 + t.day ∧
      ExistingDate t.year t.month t.day ∧ t = ⟨t.year, t.month, t.day, 0, 0, 0, 0⟩ := by
  rw [← parse8_iff]
  unfold unmarshalDate
  cases Time.parse8 v <;> simp

/-- C10: a date of the years 0 to 9999 survives the wire. -/
theorem C10_date_roundtrip (t : Time.Civil) (h1 : 0 ≤ t.year) (h2 : t.year ≤ 9999)
    (h3 : ExistingDate t.year t.month t.day) :
    unmarshalDate (marshalDate t) = .ok ⟨t.year, t.month, t.day, 0, 0, 0, 0⟩ := by
  obtain ⟨g1, g2, g3⟩ := format8_spec h1 h2 h3
  rw [C10_date_iff]
  exact ⟨g1, g2.2, g3, h3, rfl⟩

/-- C10: years of five digits are printed but cannot be read back. -/
theorem C10_date_wide (t : Time.Civil) (h : 9999 < t.year) (u : Time.Civil) :
    unmarshalDate (marshalDate t) ≠ .ok u := by
  intro hc
  have h1 := (C10_date_iff _ _).1 hc
  have h2 : 5 ≤ (natDec t.year.natAbs).length := by
    by_contra hlt
    -- four digits cannot denote more than 9999
    have hb : ∀ ds : Bytes, (∀ b ∈ ds, Digit b) → value ds < 10 ^ ds.length := by
      intro ds
      induction ds with
      | nil => simp [value]
      | cons a ds ih =>
        intro hd
        have := ih fun b hb => hd b (by simp [hb])
        have ha := digit_lt (hd a (by simp))
        simp only [value, List.length_cons, Nat.pow_succ]
        have hmul : (a.toNat - 48) * 10 ^ ds.length ≤ 9 * 10 ^ ds.length := Nat.mul_le_mul_right _ ha
        omega
    have h3 := hb _ (natDec_digits t.year.natAbs).2
    rw [value_natDec] at h3
    have h4 : 10 ^ (natDec t.year.natAbs).length ≤ 10 ^ 4 := Nat.pow_le_pow_right (by omega) (by omega)
    omega
  have h3 := h1.1
  unfold marshalDate Time.format8 Time.formatYear at h3
  rw [if_neg (by omega)] at h3
  have h4 : 1 ≤ (natDec t.month).length := natDec_pos _
  have h5 : 1 ≤ (natDec t.day).length := natDec_pos _
  simp only [Time.pad, List.length_append, List.length_replicate] at h3
  omega

/-- C10: exactly the texts of six digits that denote a time of day decode, and
those with a decimal fraction of a second behind. -/
theorem C10_time_iff (v : Bytes) (t : Time.Civil) :
    unmarshalTime v = .ok t ↔
      ∃ a f, v = a ++ f ∧ a.length = 6 ∧ (∀ b ∈ a, Digit b) ∧ Fraction f t.nsec ∧
        value a = t.hour * 10000 + t.min * 100 + t.sec ∧ TimeOfDay t.hour t.min t.sec ∧
        t = ⟨0, 1, 1, t.hour, t.min, t.sec, t.nsec⟩ := by
  rw [← parse6_iff]
  unfold unmarshalTime
  cases Time.parse6 v <;> simp

/-- C10: every time of day survives the wire (up to fractions of a second). -/
theorem C10_time_roundtrip (t : Time.Civil) (h : TimeOfDay t.hour t.min t.sec) :
    unmarshalTime (marshalTime t) = .ok ⟨0, 1, 1, t.hour, t.min, t.sec, 0⟩ := by
  obtain ⟨g1, g2, g3⟩ := format6_spec h
  rw [C10_time_iff]
  exact ⟨Time.format6 t, [], by simp [marshalTime], g1, g2.2, Or.inl ⟨rfl, rfl⟩, g3, h, rfl⟩

example : unmarshalDate b!"20240229" = .ok ⟨2024, 2, 29, 0, 0, 0, 0⟩ ∧ unmarshalDate b!"20230229" = .err ∧
    unmarshalDate b!"2024022" = .err := by decide
example : ExistingDate 2000 2 29 ∧ ¬ ExistingDate 1900 2 29 := by
  unfold ExistingDate LeapYear; decide
example : unmarshalTime b!"235959" = .ok ⟨0, 1, 1, 23, 59, 59, 0⟩ ∧
    unmarshalTime b!"120000,5" = .ok ⟨0, 1, 1, 12, 0, 0, 500000000⟩ ∧ unmarshalTime b!"240000" = .err := by decide

/-! ## C11: booleans and codes -/

/-- C11: J and N and nothing else. -/
theorem C11_bool (b : Bytes) (v : Bool) : unmarshalBool b = .ok v ↔ b = marshalBool v := by
  unfold unmarshalBool marshalBool
  constructor
  · intro h
    split at h
    · rename_i h1; simp at h; simp [← h, h1]
    · split at h
      · rename_i h1; simp at h; simp [← h, h1]
      · simp at h
  · rintro rfl
    cases v <;> simp

/-- C11: a boolean element never counts as valid. -/
theorem C11_bool_never_valid (v : Bool) : boolIsValid v = false := by cases v <;> decide

/-- C11: a code element counts as valid exactly if it is not greater than the
greatest member of the valid set (and is admissible text of admissible length).
Membership is not required. -/
theorem C11_code_iff (v : Str) (max : Int) (set : List Str) :
    codeIsValid v max (newCodeSet set) = true ↔
      (∃ m ∈ set, v ≤ m) ∧ (∀ c ∈ v, c ≠ '\n' ∧ c ≠ '\r' ∧ c ≠ ' ' ∧ c ≠ '&') ∧ (strLen v : Int) ≤ max := by
  have h1 := searchStrings_lt (newCodeSet_sorted set) v
  simp only [mem_newCodeSet, strLe_iff] at h1
  rw [← h1]
  unfold codeIsValid alnumIsValid
  by_cases hs : searchStrings (newCodeSet set) v < (newCodeSet set).length
  · rw [if_neg (by omega)]
    simp only [hs, true_and]
    by_cases hf : v.any (fun c => c == '\n' || c == ' ' || c == '&' || c == '\r') = true
    · rw [if_pos hf]
      simp only [Bool.false_eq_true, false_iff, not_and]
      intro hno
      rw [List.any_eq_true] at hf
      obtain ⟨c, hc, hx⟩ := hf
      have := hno c hc
      simp [this] at hx
    · rw [if_neg hf]
      simp only [decide_eq_true_eq]
      constructor
      · intro h
        refine ⟨fun c hc => ?_, h⟩
        rw [Bool.not_eq_true, List.any_eq_false] at hf
        have := hf c hc
        simp at this
        tauto
      · exact fun h => h.2
  · rw [if_pos (by omega)]
    simp [hs]

/-- C11: members are valid. -/
theorem C11_code_member (v : Str) (max : Int) (set : List Str) (hv : v ∈ set)
    (hc : ∀ c ∈ v, c ≠ '\n' ∧ c ≠ '\r' ∧ c ≠ ' ' ∧ c ≠ '&') (hl : (strLen v : Int) ≤ max) :
    codeIsValid v max (newCodeSet set) = true :=
  (C11_code_iff v max set).2 ⟨⟨v, hv, List.le_refl v⟩, hc, hl⟩

/-- C11: the expected converse is false: a value outside the set is accepted. -/
theorem C11_code_not_membership :
    codeIsValid c!"B" 1 (newCodeSet [c!"C", c!"A"]) = true ∧ c!"B" ∉ [c!"C", c!"A"] :=
  ⟨(C11_code_iff _ _ _).2 ⟨⟨c!"C", by simp, by decide⟩, by decide, by decide⟩, by decide⟩

example : codeIsValid c!"D" 1 (newCodeSet [c!"C", c!"A"]) = false := by
  rw [← Bool.not_eq_true, C11_code_iff]
  rintro ⟨⟨m, hm, h⟩, _⟩
  simp at hm
  rcases hm with rfl | rfl <;> exact absurd h (by decide)
example : unmarshalBool b!"J" = .ok true ∧ unmarshalBool b!"j" = .err := by decide

/-! ## C12: groups -/

/-- C12: let `m` be a marshalled group, `ps` the bytes of its elements (nothing for
an absent one), each empty or a wire value, not all empty.  Extracting the elements
of `m` returns `ps` without the trailing empty ones exactly if no element contains
`+` or `'` and the last non-empty one does not end in `:`; in every other case
extraction does not succeed at all. -/
theorem C12_extract_iff {n : Nat} {es : List (Option DE)} {ps out : List Bytes} {m : Bytes}
    (hps : es.map DE.marshalOpt = ps.map .ok) (hm : (DE.group n es).marshal = .ok m)
    (hv : ∀ p ∈ ps, p = [] ∨ Value p) (hne : ∃ p ∈ ps, p ≠ []) (hout : DropTrailing ps out)
    (hl : wireSize ps < 2 ^ 63) (res : List Bytes) :
    extractElements m = .ok res ↔
      res = out ∧ (∀ p ∈ ps, 43 ∉ p ∧ 39 ∉ p) ∧ (∀ p, out.getLast? = some p → p.getLast? ≠ some 58) := by
  obtain ⟨init, p, k, hp, he⟩ := dropTrailing_exists ps hne
  have ho : out = init ++ [p] := (dropTrailing_iff hp he).1 hout
  subst ho
  have hall := marshalAll_ok.2 hps
  have hpv : Value p := by
    rcases hv p (by simp [he]) with h | h
    · exact absurd h hp
    · exact h
  have hmm : m = pre 58 init ++ trimRight 58 p := by
    rw [DE.marshal, hall] at hm
    simp only [Outcome.map', Outcome.ok.injEq] at hm
    rw [← hm, he, trim_join (trimRight_value (Or.inr (Or.inr rfl)) hpv)]
  have hsub : ∀ q ∈ init, Part q := fun q hq => hv q (by simp [he, hq])
  have hl' : (pre 58 (init ++ [p])).length < 2 ^ 63 := by
    rw [wireSize_pre]
    have : wireSize ps = wireSize (init ++ [p]) + wireSize (List.replicate k []) := by
      rw [he]; simp [wireSize]; omega
    omega
  have hmem : ∀ q ∈ ps, q = [] ∨ q ∈ init ++ [p] := by
    intro q hq
    rw [he] at hq
    simp only [List.mem_append, List.mem_replicate] at hq ⊢
    rcases hq with (hq | hq) | hq
    · exact Or.inr (Or.inl hq)
    · exact Or.inr (Or.inr hq)
    · exact Or.inl hq.2
  by_cases hcut : p.getLast? = some 58
  · -- the last element loses its end
    obtain ⟨j, hj⟩ := trimRight_spec 58 p
    cases j with
    | zero =>
      simp only [List.replicate_zero, List.append_nil] at hj
      have := trimRight_getLast? 58 p
      rw [← hj] at this
      exact absurd hcut this
    | succ j =>
      constructor
      · intro h
        rw [hmm] at h
        exact absurd h (extract_group_cut hsub hpv hl' hj (trimRight_value (Or.inr (Or.inr rfl)) hpv) res)
      · rintro ⟨_, _, h⟩
        exact absurd hcut (h p (by simp))
  · have htr : trimRight 58 p = p := trimRight_of_last hcut
    rw [htr] at hmm
    by_cases hs : ∀ q ∈ ps, 43 ∉ q ∧ 39 ∉ q
    · have hx := extract_group hsub hpv hl' (fun q hq => hs q (by rw [he]; simp at hq ⊢; tauto))
      rw [hmm, hx]
      simp only [Outcome.ok.injEq]
      constructor
      · rintro rfl
        exact ⟨rfl, hs, fun q hq => by simp at hq; subst hq; exact hcut⟩
      · rintro ⟨rfl, _⟩; rfl
    · constructor
      · intro h
        rw [hmm] at h
        have hs2 : 43 ∈ pre 58 init ++ p ∨ 39 ∈ pre 58 init ++ p := by
          simp only [not_forall] at hs
          obtain ⟨q, hq, hx⟩ := hs
          have hq2 : q ∈ init ++ [p] := by
            rcases hmem q hq with rfl | h
            · simp at hx
            · exact h
          have hin : ∀ b ∈ q, b ∈ pre 58 init ++ p := by
            intro b hb
            simp only [List.mem_append, List.mem_singleton] at hq2
            rcases hq2 with hq2 | rfl
            · exact List.mem_append_left _ (List.mem_flatMap.2 ⟨q, hq2, by simp [hb]⟩)
            · exact List.mem_append_right _ hb
          by_cases h43 : 43 ∈ q
          · exact Or.inl (hin 43 h43)
          · right
            apply hin 39
            by_contra h39
            exact hx ⟨h43, h39⟩
        exact absurd h (extract_group_sep hsub hpv hl' (x := []) (by simp) hp hs2 res)
      · rintro ⟨_, h, _⟩; exact absurd h hs

/-- What C12 needs of the contents of a leaf element: text without NUL that does
not look like a malformed number; canonical fractions.  Nothing of numbers,
digits, binary data, booleans, dates and times. -/
def Harmless : DE → Prop
  | .alnum v _ | .text v _ | .code v _ _ | .identification v _ | .currency v _ =>
    '\x00' ∉ v ∧ ¬ LikeMalformedFloat v
  | .float v _ | .value v _ => v.Canonical
  | .group _ _ | .array _ _ _ => False
  | _ => True

/-- C12: leaf elements put nothing or one wire value on the wire. -/
theorem C12_leaf {e : DE} {p : Bytes} (h : Harmless e) (hm : e.marshal = .ok p) : p = [] ∨ Value p := by
  have text : ∀ v : Str, '\x00' ∉ v ∧ ¬ LikeMalformedFloat v → marshalText v = .ok p → p = [] ∨ Value p := by
    intro v hv hm
    obtain ⟨hlat, rfl⟩ := toISO_eq_ok.1 hm
    rw [escape_latin1] at hlat
    by_cases hn : v = []
    · left; subst hn; rfl
    · right; exact (text_value_iff hlat).2 ⟨hn, hv⟩
  cases e with
  | alnum v _ => exact text v h (by simpa [DE.marshal] using hm)
  | text v _ => exact text v h (by simpa [DE.marshal] using hm)
  | code v _ _ => exact text v h (by simpa [DE.marshal] using hm)
  | identification v _ => exact text v h (by simpa [DE.marshal] using hm)
  | currency v _ => exact text v h (by simpa [DE.marshal] using hm)
  | digit v w => right; simp [DE.marshal] at hm; rw [← hm]; exact zeroPad_value _ _
  | countryCode v w => right; simp [DE.marshal] at hm; rw [← hm]; exact zeroPad_value _ _
  | number v _ => right; simp [DE.marshal] at hm; rw [← hm]; exact itoa_value _
  | virtualDate v _ => right; simp [DE.marshal] at hm; rw [← hm]; exact itoa_value _
  | float v _ => right; simp [DE.marshal] at hm; rw [← hm]; exact floatString_value h
  | value v _ => right; simp [DE.marshal] at hm; rw [← hm]; exact floatString_value h
  | dtaus v _ => right; simp [DE.marshal] at hm; rw [← hm]; exact marshalBinary_value _
  | binary v _ => right; simp [DE.marshal] at hm; rw [← hm]; exact marshalBinary_value _
  | boolean v =>
    right
    simp [DE.marshal] at hm
    rw [← hm]
    refine Or.inr ?_
    cases v
    · refine ⟨by simp [marshalBool], .plain (by simp [Delim]) (by decide) (by decide) .nil, by simp [marshalBool], ?_⟩
      rintro ⟨ds, w, he, _⟩
      simp [marshalBool] at he
    · refine ⟨by simp [marshalBool], .plain (by simp [Delim]) (by decide) (by decide) .nil, by simp [marshalBool], ?_⟩
      rintro ⟨ds, w, he, _⟩
      simp [marshalBool] at he
  | date t => right; simp [DE.marshal] at hm; rw [← hm]; exact format8_value _
  | time t => right; simp [DE.marshal] at hm; rw [← hm]; exact format6_value _
  | group n es => exact absurd h id
  | array a b es => exact absurd h id

/-- A non-trivial group: text with escapes, an absent element, binary data with
delimiters, trailing absent elements. -/
example :
    (DE.group 5 [some (.text c!"a:b?" 9), none, some (.binary b!"x:\x00" 9), none, none]).marshal
      = .ok b!"a?:b??::@3@x:\x00" ∧
    extractElements b!"a?:b??::@3@x:\x00" = .ok [b!"a?:b??", [], b!"@3@x:\x00"] := ⟨rfl, by decide⟩

/-- An escaped `+` inside a group makes the group unreadable. -/
theorem C12_plus_unreadable :
    (DE.group 2 [some (.text c!"1+1" 9), some (.number 2 9)]).marshal = .ok b!"1?+1:2" ∧
    extractElements b!"1?+1:2" = .err := ⟨rfl, by decide⟩

/-- A text ending in `:` is cut when it comes last. -/
theorem C12_colon_cut :
    (DE.group 2 [some (.number 2 9), some (.text c!"Note:" 9)]).marshal = .ok b!"2:Note?" ∧
    extractElements b!"2:Note?" = .err := ⟨rfl, by decide⟩

/-! ## C62: amounts -/

/-- C62: a decimal fraction survives the wire, is written with exactly one comma,
and is one wire value. -/
theorem C62_float {x : Dec} (h : x.Canonical) :
    unmarshalFloat (floatString x) = .ok x ∧ Value (floatString x) ∧
    floatString x = (if x.neg then [45] else []) ++ marshalNumber x.int ++ 44 :: x.frac := by
  refine ⟨unmarshalFloat_floatString h, floatString_value h, ?_⟩
  rw [floatString_eq]
  unfold Dec.head marshalNumber itoa
  have : ¬ ((x.int : Int) < 0) := by omega
  rw [if_neg this]
  simp

example : floatString ⟨true, 1234, b!"56"⟩ = b!"-1234,56" ∧ floatString ⟨false, 7, []⟩ = b!"7," ∧
    Dec.Canonical ⟨true, 1234, b!"56"⟩ := by
  refine ⟨by decide, by decide, ?_, by decide⟩
  intro b hb; simp at hb; rcases hb with rfl | rfl <;> simp [Digit]

/-! ## C63: validity of decoded elements -/

/-- C63: a decoded number (its maximal length is the length of the text) is valid. -/
theorem C63_number_valid {b : Bytes} {n : Int} (h : unmarshalNumber b = .ok n) : intIsValid n b.length = true := by
  obtain ⟨⟨ds, hd, h2⟩, hi⟩ := (C09_accepts b n).1 h
  -- printing never needs more digits than were read
  have key : (natDec (value ds)).length ≤ ds.length := by
    apply natDec_length_le
    · cases ds with
      | nil => exact absurd rfl hd.1
      | cons => simp
    · have : ∀ ds : Bytes, (∀ b ∈ ds, Digit b) → value ds < 10 ^ ds.length := by
        intro ds
        induction ds with
        | nil => simp [value]
        | cons a ds ih =>
          intro hd
          have := ih fun b hb => hd b (by simp [hb])
          have ha := digit_lt (hd a (by simp))
          simp only [value, List.length_cons, Nat.pow_succ]
          have hmul : (a.toNat - 48) * 10 ^ ds.length ≤ 9 * 10 ^ ds.length := Nat.mul_le_mul_right _ ha
          omega
      exact this ds hd.2
  unfold intIsValid itoa
  rw [decide_eq_true_eq]
  rcases h2 with ⟨rfl | rfl, h3⟩ | ⟨rfl, h3⟩
  · rw [if_neg (by omega), h3, Int.natAbs_natCast]; omega
  · rw [if_neg (by omega), h3, Int.natAbs_natCast]; simp; omega
  · have e : n.natAbs = value ds := by omega
    split
    · rw [e]; simp; omega
    · rw [e]; simp; omega

/-- C63: a decoded text element is valid as an alphanumeric one exactly if it has
no line break, blank or ampersand. -/
theorem C63_alnum_valid (b : Bytes) :
    alnumIsValid (unmarshalText b) (strLen (unmarshalText b)) = true ↔
      ∀ c ∈ unmarshalText b, c ≠ '\n' ∧ c ≠ '\r' ∧ c ≠ ' ' ∧ c ≠ '&' := by
  have h := C11_code_iff (unmarshalText b) (strLen (unmarshalText b)) [unmarshalText b]
  have hm : ∃ m ∈ [unmarshalText b], unmarshalText b ≤ m := ⟨_, by simp, List.le_refl _⟩
  have hlt : searchStrings (newCodeSet [unmarshalText b]) (unmarshalText b) < (newCodeSet [unmarshalText b]).length := by
    rw [searchStrings_lt (newCodeSet_sorted _)]
    simp only [mem_newCodeSet, strLe_iff]
    exact hm
  unfold codeIsValid at h
  rw [if_neg (by omega)] at h
  rw [h]
  simp

/-- C63: a decoded binary element (its maximal length is the number of bytes) never
counts as valid, because its printed form is measured. -/
theorem C63_binary_never_valid (d : Bytes) : binaryIsValid d d.length = false := by
  unfold binaryIsValid
  rw [decide_eq_false_iff_not]
  have : ∀ d : Bytes, d.length ≤ (join 32 (d.map fun b => natDec b.toNat)).length := by
    intro d
    induction d with
    | nil => simp [join]
    | cons b d ih =>
      have hb := natDec_pos b.toNat
      cases d with
      | nil => simp [join]; omega
      | cons c d =>
        rw [List.map_cons, join_cons _ _ (by simp)]
        simp only [List.length_cons, List.length_append] at ih ⊢
        omega
  have := this d
  unfold bytesText
  simp only [List.length_cons, List.length_append, List.length_nil]
  omega

/-- C63: a code element loses its valid set when decoded and is then never valid. -/
theorem C63_code_never_valid (v : Str) (max : Int) : codeIsValid v max [] = false := by
  simp [codeIsValid]

/-- C63: every decoded time is valid; a decoded date is valid unless it is the
first day of the year 1. -/
theorem C63_time_valid {b : Bytes} {t : Time.Civil} :
    (unmarshalTime b = .ok t → timeIsValid t = true) ∧
    (unmarshalDate b = .ok t → (timeIsValid t = false ↔ b = b!"00010101")) := by
  constructor
  · intro h
    obtain ⟨_, _, _, _, _, _, _, _, ht⟩ := (C10_time_iff _ _).1 h
    rw [ht]
    simp [timeIsValid, Time.isZero]
  · intro h
    constructor
    · intro hz
      simp only [timeIsValid, Time.isZero, Bool.not_eq_false', beq_iff_eq] at hz
      obtain ⟨h1, h2, h3, _, _⟩ := (C10_date_iff _ _).1 h
      rw [hz] at h3
      match b, h1 with
      | [a1, a2, a3, a4, a5, a6, a7, a8], _ =>
        have k : ∀ x ∈ [a1, a2, a3, a4, a5, a6, a7, a8], 48 ≤ x.toNat ∧ x.toNat ≤ 57 := h2
        simp only [List.mem_cons, List.not_mem_nil, or_false, forall_eq_or_imp, forall_eq] at k
        simp [value] at h3
        have ext : ∀ x y : Byte, x.toNat = y.toNat → x = y := fun x y h => UInt8.toNat_inj.1 h
        have e1 : a1 = 48 := ext _ _ (by simp; omega)
        have e2 : a2 = 48 := ext _ _ (by simp; omega)
        have e3 : a3 = 48 := ext _ _ (by simp; omega)
        have e4 : a4 = 49 := ext _ _ (by simp; omega)
        have e5 : a5 = 48 := ext _ _ (by simp; omega)
        have e6 : a6 = 49 := ext _ _ (by simp; omega)
        have e7 : a7 = 48 := ext _ _ (by simp; omega)
        have e8 : a8 = 49 := ext _ _ (by simp; omega)
        subst e1 e2 e3 e4 e5 e6 e7 e8
        rfl
    · rintro rfl
      have : unmarshalDate b!"00010101" = .ok ⟨1, 1, 1, 0, 0, 0, 0⟩ := by decide
      rw [this] at h
      simp at h
      rw [← h]
      decide

example : unmarshalNumber b!"007" = .ok 7 ∧ intIsValid 7 3 = true := by decide
example : alnumIsValid c!"A B" 3 = false ∧ alnumIsValid c!"A+B" 3 = true := by decide

end Verif.Element

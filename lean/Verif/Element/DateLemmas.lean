import Verif.Element.Lemmas
import Mathlib.Tactic.Ring

/-
Dates and times.
-/

namespace Verif.Element

open GoLib Spec Verif.Token.Spec Time

theorem value_append (a b : Bytes) : value (a ++ b) = value a * 10 ^ b.length + value b := by
  induction a with
  | nil => simp [value]
  | cons c a ih => simp [value, ih, Nat.pow_add]; ring_nf

theorem pad_length {w n : Nat} (hw : 1 ≤ w) (h : n < 10 ^ w) : (pad w n).length = w := by
  have := natDec_length_le hw h
  simp [pad]; omega

theorem pad_digits (w n : Nat) : DigitString (pad w n) := zeros_digits (natDec_digits n)

theorem pad_value (w n : Nat) : value (pad w n) = n := by
  rw [← digitsVal_eq]
  unfold pad
  rw [digitsVal_zeros, digitsVal_natDec]

theorem leap_iff (y : Int) : isLeap y = true ↔ LeapYear y := by
  unfold isLeap LeapYear
  simp only [Bool.and_eq_true, beq_iff_eq, Bool.or_eq_true, bne_iff_ne, ne_eq]
  omega

theorem existing_iff (y : Int) (m d : Nat) :
    ExistingDate y m d ↔ (1 ≤ m ∧ m ≤ 12) ∧ 1 ≤ d ∧ d ≤ daysIn m y := by
  unfold ExistingDate daysIn
  have hl := leap_iff y
  simp only [List.mem_cons, List.not_mem_nil, or_false]
  by_cases h2 : m = 2
  · subst h2
    by_cases hy : isLeap y = true
    · have := hl.1 hy
      simp [hy, this]
      omega
    · have h3 : ¬ LeapYear y := fun h => hy (hl.2 h)
      simp [hy, h3]
  · simp only [h2, if_false, false_and, or_false]
    split
    · omega
    · omega

theorem getnumFixed_some {v r : Bytes} {n : Nat} (h : getnumFixed v = some (n, r)) :
    ∃ a b, v = a :: b :: r ∧ Digit a ∧ Digit b ∧ n = value [a, b] := by
  unfold getnumFixed at h
  split at h
  · split at h
    · rename_i a b r' hd
      simp only [Option.some.injEq, Prod.mk.injEq] at h
      obtain ⟨rfl, rfl⟩ := h
      simp only [Bool.and_eq_true] at hd
      exact ⟨a, b, rfl, (isDigit_iff a).1 hd.1, (isDigit_iff b).1 hd.2, by simp [value]⟩
    · simp at h
  · simp at h

theorem getnumFixed_digits {a b : Byte} {r : Bytes} (ha : Digit a) (hb : Digit b) :
    getnumFixed (a :: b :: r) = some (value [a, b], r) := by
  simp [getnumFixed, (isDigit_iff a).2 ha, (isDigit_iff b).2 hb, value]

theorem getnum_some {v r : Bytes} {n : Nat} (h : getnum v = some (n, r)) :
    (∃ a b, v = a :: b :: r ∧ Digit a ∧ Digit b ∧ n = value [a, b]) ∨
    (∃ a, v = a :: r ∧ Digit a ∧ ∀ b, r.head? = some b → ¬ Digit b) := by
  unfold getnum at h
  split at h
  · simp at h
  · split at h
    · rename_i a hd
      simp only [Option.some.injEq, Prod.mk.injEq] at h
      obtain ⟨rfl, rfl⟩ := h
      exact Or.inr ⟨a, rfl, (isDigit_iff a).1 hd, by simp⟩
    · simp at h
  · split at h
    · rename_i a b r' hd
      split at h
      · rename_i hb
        simp only [Option.some.injEq, Prod.mk.injEq] at h
        obtain ⟨rfl, rfl⟩ := h
        exact Or.inl ⟨a, b, rfl, (isDigit_iff a).1 hd, (isDigit_iff b).1 hb, by simp [value]⟩
      · rename_i hb
        simp only [Option.some.injEq, Prod.mk.injEq] at h
        obtain ⟨rfl, rfl⟩ := h
        refine Or.inr ⟨a, rfl, (isDigit_iff a).1 hd, ?_⟩
        intro b' hb' hd'
        simp at hb'; subst hb'
        exact hb ((isDigit_iff b).2 hd')
    · simp at h

theorem getnum_digits {a b : Byte} {r : Bytes} (ha : Digit a) (hb : Digit b) :
    getnum (a :: b :: r) = some (value [a, b], r) := by
  simp [getnum, (isDigit_iff a).2 ha, (isDigit_iff b).2 hb, value]

theorem digit_lt {a : Byte} (h : Digit a) : a.toNat - 48 ≤ 9 := by unfold Digit at h; omega

/-- `parseMonthDay` on four digits. -/
theorem parseMonthDay_iff {y : Int} {v : Bytes} {t : Civil} :
    parseMonthDay y v = some t ↔
      v.length = 4 ∧ (∀ b ∈ v, Digit b) ∧ value v = t.month * 100 + t.day ∧
      ExistingDate y t.month t.day ∧ t = ⟨y, t.month, t.day, 0, 0, 0, 0⟩ := by
  constructor
  · intro h
    unfold parseMonthDay at h
    cases h1 : getnumFixed v with
    | none => simp [h1] at h
    | some p =>
      obtain ⟨m, v1⟩ := p
      obtain ⟨a, b, rfl, ha, hb, rfl⟩ := getnumFixed_some h1
      simp only [h1, Option.bind_eq_bind, Option.bind_some] at h
      split at h
      · simp at h
      · rename_i hm
        cases h2 : getnumFixed v1 with
        | none => simp [h2] at h
        | some q =>
          obtain ⟨d, v2⟩ := q
          obtain ⟨a', b', rfl, ha', hb', rfl⟩ := getnumFixed_some h2
          simp only [h2, Option.bind_some] at h
          split at h
          · simp at h
          · rename_i hv2
            simp only [ne_eq, not_not] at hv2
            subst hv2
            split at h
            · simp at h
            · rename_i hd
              simp only [Option.some.injEq] at h
              subst h
              refine ⟨rfl, ?_, ?_, ?_, rfl⟩
              · intro x hx
                simp only [List.mem_cons, List.not_mem_nil, or_false] at hx
                rcases hx with rfl | rfl | rfl | rfl <;> assumption
              · simp [value]; omega
              · rw [existing_iff]
                dsimp only
                omega
  · rintro ⟨h1, h2, h3, h4, h5⟩
    obtain ⟨a, b, a', b', rfl⟩ : ∃ a b a' b', v = [a, b, a', b'] := by
      match v, h1 with
      | [a, b, c, d], _ => exact ⟨a, b, c, d, rfl⟩
    have ha := h2 a (by simp)
    have hb := h2 b (by simp)
    have ha' := h2 a' (by simp)
    have hb' := h2 b' (by simp)
    rw [existing_iff] at h4
    have hd31 : daysIn t.month y ≤ 31 := by
      unfold daysIn; split
      · split <;> omega
      · split <;> omega
    have l1 := digit_lt ha
    have l2 := digit_lt hb
    have l3 := digit_lt ha'
    have l4 := digit_lt hb'
    have hm : value [a, b] = t.month := by simp [value] at h3 ⊢; omega
    have hd : value [a', b'] = t.day := by simp [value] at h3 ⊢; omega
    unfold parseMonthDay
    simp only [getnumFixed_digits ha hb, Option.bind_eq_bind, Option.bind_some, hm]
    rw [if_neg (by omega)]
    simp only [getnumFixed_digits ha' hb', Option.bind_some, hd]
    rw [if_neg (by simp), if_neg (by omega), ← h5]

theorem parse8_iff {v : Bytes} {t : Civil} :
    parse8 v = some t ↔
      v.length = 8 ∧ (∀ b ∈ v, Digit b) ∧
      (value v : Int) = t.year * 10000 + t.month * 100 + t.day ∧
      ExistingDate t.year t.month t.day ∧ t = ⟨t.year, t.month, t.day, 0, 0, 0, 0⟩ := by
  constructor
  · intro h
    unfold parse8 at h
    split at h
    · simp at h
    · rename_i hc
      simp only [not_or, Nat.not_lt, Bool.not_eq_true] at hc
      obtain ⟨hl, hh⟩ := hc
      cases hy : atoi (v.take 4) with
      | none => simp [hy] at h
      | some y =>
        simp only [hy, Option.bind_eq_bind, Option.bind_some] at h
        rw [parseMonthDay_iff] at h
        obtain ⟨h1, h2, h3, h4, h5⟩ := h
        have hlen : v.length = 8 := by simp at h1; omega
        -- the year is four digits
        have hdig : DigitString (v.take 4) ∧ y = value (v.take 4) := by
          rcases (decimal_iff.1 hy).1 with ⟨ds, g1, ⟨g2 | g2, g3⟩ | ⟨g2, g3⟩⟩
          · rw [g2]; exact ⟨g1, g3⟩
          · cases v with
            | nil => simp at hl
            | cons a r =>
              simp at g2
              rw [g2.1] at hh
              simp [isDigit] at hh
          · cases v with
            | nil => simp at hl
            | cons a r =>
              simp at g2
              rw [g2.1] at hh
              simp [isDigit] at hh
        have hsplit := List.take_append_drop 4 v
        refine ⟨hlen, ?_, ?_, ?_, ?_⟩
        · intro b hb
          rw [← hsplit] at hb
          simp only [List.mem_append] at hb
          rcases hb with hb | hb
          · exact hdig.1.2 b hb
          · exact h2 b hb
        · have hty : t.year = y := by rw [h5]
          rw [hty]
          conv => lhs; rw [← hsplit]
          rw [value_append, h1]
          push_cast
          rw [hdig.2]
          omega
        · have hty : t.year = y := by rw [h5]
          rw [hty]; exact h4
        · have hty : t.year = y := by rw [h5]
          rw [hty]; exact h5
  · rintro ⟨h1, h2, h3, h4, h5⟩
    have hsplit := List.take_append_drop 4 v
    have hl4 : (v.take 4).length = 4 := by simp; omega
    have hd4 : (v.drop 4).length = 4 := by simp; omega
    have hdig : DigitString (v.take 4) := ⟨by intro h; simp [h] at hl4,
      fun b hb => h2 b (List.mem_of_mem_take hb)⟩
    have hdd : ∀ b ∈ v.drop 4, Digit b := fun b hb => h2 b (List.mem_of_mem_drop hb)
    have hval : value v = value (v.take 4) * 10000 + value (v.drop 4) := by
      conv => lhs; rw [← hsplit]
      rw [value_append, hd4]
      norm_num
    have hb1 : value (v.take 4) < 10000 := by
      obtain ⟨a, b, c, d, he⟩ : ∃ a b c d, v.take 4 = [a, b, c, d] := by
        match v.take 4, hl4 with
        | [a, b, c, d], _ => exact ⟨a, b, c, d, rfl⟩
      rw [he] at hdig ⊢
      have l1 := digit_lt (hdig.2 a (by simp))
      have l2 := digit_lt (hdig.2 b (by simp))
      have l3 := digit_lt (hdig.2 c (by simp))
      have l4 := digit_lt (hdig.2 d (by simp))
      simp [value]; omega
    have hb2 : value (v.drop 4) < 10000 := by
      obtain ⟨a, b, c, d, he⟩ : ∃ a b c d, v.drop 4 = [a, b, c, d] := by
        match v.drop 4, hd4 with
        | [a, b, c, d], _ => exact ⟨a, b, c, d, rfl⟩
      rw [he] at hdd ⊢
      have l1 := digit_lt (hdd a (by simp))
      have l2 := digit_lt (hdd b (by simp))
      have l3 := digit_lt (hdd c (by simp))
      have l4 := digit_lt (hdd d (by simp))
      simp [value]; omega
    have hmd : t.month ≤ 12 ∧ t.day ≤ 31 := by
      rw [existing_iff] at h4
      have : daysIn t.month t.year ≤ 31 := by
        unfold daysIn; split
        · split <;> omega
        · split <;> omega
      omega
    have hy : t.year = value (v.take 4) := by rw [hval] at h3; push_cast at h3; omega
    have hmd2 : value (v.drop 4) = t.month * 100 + t.day := by rw [hval] at h3; push_cast at h3; omega
    unfold parse8
    rw [if_neg]
    · have : atoi (v.take 4) = some t.year := by
        rw [decimal_iff]
        exact ⟨⟨_, hdig, Or.inl ⟨Or.inl rfl, hy⟩⟩, by unfold IsInt; omega⟩
      simp only [this, Option.bind_eq_bind, Option.bind_some]
      rw [parseMonthDay_iff]
      exact ⟨hd4, hdd, hmd2, h4, h5⟩
    · rintro (h | h)
      · omega
      · cases v with
        | nil => simp at h
        | cons a r =>
          have := (isDigit_iff a).2 (h2 a (by simp))
          simp [this] at h

theorem format8_spec {t : Civil} (hy : 0 ≤ t.year) (hy2 : t.year ≤ 9999)
    (hd : ExistingDate t.year t.month t.day) :
    (format8 t).length = 8 ∧ DigitString (format8 t) ∧
      (value (format8 t) : Int) = t.year * 10000 + t.month * 100 + t.day := by
  have hmd : t.month ≤ 12 ∧ t.day ≤ 31 := by
    rw [existing_iff] at hd
    have : daysIn t.month t.year ≤ 31 := by
      unfold daysIn; split
      · split <;> omega
      · split <;> omega
    omega
  have l4 : (pad 4 t.year.natAbs).length = 4 := pad_length (by omega) (by omega)
  have l2 : (pad 2 t.month).length = 2 := pad_length (by omega) (by omega)
  have l2' : (pad 2 t.day).length = 2 := pad_length (by omega) (by omega)
  unfold format8 formatYear
  rw [if_neg (by omega)]
  refine ⟨by simp [l4, l2, l2'], ⟨by intro h; have := congrArg List.length h; simp [l4] at this, ?_⟩, ?_⟩
  · intro b hb
    simp only [List.mem_append] at hb
    rcases hb with (hb | hb) | hb
    · exact (pad_digits _ _).2 b hb
    · exact (pad_digits _ _).2 b hb
    · exact (pad_digits _ _).2 b hb
  · rw [value_append, value_append, pad_value, pad_value, pad_value, l2, l2']
    have e : (t.year.natAbs : Int) = t.year := by omega
    simp only [Nat.cast_add, Nat.cast_mul, e]
    norm_num
    omega

theorem format6_spec {t : Civil} (h : TimeOfDay t.hour t.min t.sec) :
    (format6 t).length = 6 ∧ DigitString (format6 t) ∧
      value (format6 t) = t.hour * 10000 + t.min * 100 + t.sec := by
  obtain ⟨h1, h2, h3⟩ := h
  have l1 : (pad 2 t.hour).length = 2 := pad_length (by omega) (by omega)
  have l2 : (pad 2 t.min).length = 2 := pad_length (by omega) (by omega)
  have l3 : (pad 2 t.sec).length = 2 := pad_length (by omega) (by omega)
  unfold format6
  refine ⟨by simp [l1, l2, l3], ⟨by intro h; have := congrArg List.length h; simp [l1] at this, ?_⟩, ?_⟩
  · intro b hb
    simp only [List.mem_append] at hb
    rcases hb with (hb | hb) | hb
    · exact (pad_digits _ _).2 b hb
    · exact (pad_digits _ _).2 b hb
    · exact (pad_digits _ _).2 b hb
  · rw [value_append, value_append, pad_value, pad_value, pad_value, l2, l3]
    omega

theorem takeWhile_self {p : Byte → Bool} {l : Bytes} (h : ∀ b ∈ l, p b = true) : l.takeWhile p = l := by
  induction l with
  | nil => rfl
  | cons a l ih => simp [h a (by simp), ih fun b hb => h b (by simp [hb])]

theorem dropWhile_nil {p : Byte → Bool} {l : Bytes} (h : ∀ b ∈ l, p b = true) : l.dropWhile p = [] := by
  induction l with
  | nil => rfl
  | cons a l ih => simp [h a (by simp), ih fun b hb => h b (by simp [hb])]

theorem parseFraction_iff {v : Bytes} {ns : Nat} : parseFraction v = (ns, []) ↔ Fraction v ns := by
  constructor
  · intro h
    unfold parseFraction at h
    split at h
    · rename_i c d r
      split at h
      · rename_i hc
        simp only [Bool.and_eq_true, Bool.or_eq_true, beq_iff_eq] at hc
        simp only [Prod.mk.injEq] at h
        have hall : (d :: r).takeWhile isDigit = d :: r := by
          have := List.takeWhile_append_dropWhile (p := isDigit) (l := d :: r)
          rw [h.2, List.append_nil] at this
          exact this
        refine Or.inr ⟨c, d :: r, rfl, hc.1, ⟨by simp, ?_⟩, ?_⟩
        · intro b hb
          rw [← hall] at hb
          exact (isDigit_iff b).1 (Token.takeWhile_all b hb)
        · rw [← h.1, hall, digitsVal_eq]
          congr 2
          simp; omega
      · simp at h
    · simp only [Prod.mk.injEq] at h
      exact Or.inl ⟨h.2, h.1.symm⟩
  · rintro (⟨rfl, rfl⟩ | ⟨c, ds, rfl, hc, hd, rfl⟩)
    · rfl
    · cases ds with
      | nil => exact absurd rfl hd.1
      | cons d r =>
        have hall : ∀ b ∈ d :: r, isDigit b = true := fun b hb => (isDigit_iff b).2 (hd.2 b hb)
        have h1 : (d :: r).takeWhile isDigit = d :: r := takeWhile_self hall
        have h2 : (d :: r).dropWhile isDigit = [] := dropWhile_nil hall
        unfold parseFraction
        dsimp only
        rw [if_pos, h1, h2, digitsVal_eq]
        · congr 3
          simp; omega
        · have := hall d (by simp)
          rcases hc with rfl | rfl <;> simp [this]

theorem parse6_iff {v : Bytes} {t : Civil} :
    parse6 v = some t ↔
      ∃ a f, v = a ++ f ∧ a.length = 6 ∧ (∀ b ∈ a, Digit b) ∧ Fraction f t.nsec ∧
        value a = t.hour * 10000 + t.min * 100 + t.sec ∧ TimeOfDay t.hour t.min t.sec ∧
        t = ⟨0, 1, 1, t.hour, t.min, t.sec, t.nsec⟩ := by
  constructor
  · intro h
    unfold parse6 at h
    cases h1 : getnum v with
    | none => simp [h1] at h
    | some p =>
      obtain ⟨hh, v1⟩ := p
      simp only [h1, Option.bind_eq_bind, Option.bind_some] at h
      split at h
      · simp at h
      rename_i hlt
      cases h2 : getnumFixed v1 with
      | none => simp [h2] at h
      | some q =>
        obtain ⟨mm, v2⟩ := q
        simp only [h2, Option.bind_some] at h
        split at h
        · simp at h
        rename_i mlt
        cases h3 : getnumFixed v2 with
        | none => simp [h3] at h
        | some q =>
          obtain ⟨ss, v3⟩ := q
          simp only [h3, Option.bind_some] at h
          split at h
          · simp at h
          rename_i slt
          obtain ⟨ns, v4⟩ : Nat × Bytes := parseFraction v3
          cases h4 : parseFraction v3 with
          | mk ns v4 =>
          simp only [h4] at h
          split at h
          · simp at h
          rename_i hv4
          simp only [ne_eq, not_not] at hv4
          subst hv4
          simp only [Option.some.injEq] at h
          subst h
          obtain ⟨a3, b3, rfl, ha3, hb3, rfl⟩ := getnumFixed_some h2
          obtain ⟨a5, b5, rfl, ha5, hb5, rfl⟩ := getnumFixed_some h3
          rcases getnum_some h1 with ⟨a1, b1, rfl, ha1, hb1, rfl⟩ | ⟨a1, rfl, ha1, hno⟩
          · refine ⟨[a1, b1, a3, b3, a5, b5], v3, rfl, rfl, ?_, parseFraction_iff.1 h4, ?_, ?_, rfl⟩
            · intro x hx
              simp only [List.mem_cons, List.not_mem_nil, or_false] at hx
              rcases hx with rfl | rfl | rfl | rfl | rfl | rfl <;> assumption
            · simp [value]; omega
            · exact ⟨Nat.not_le.1 hlt, Nat.not_le.1 mlt, Nat.not_le.1 slt⟩
          · exact absurd ha3 (hno a3 (by simp))
  · rintro ⟨a, f, rfl, h1, h2, h3, h4, h5, h6⟩
    obtain ⟨a1, b1, a3, b3, a5, b5, rfl⟩ : ∃ a1 b1 a3 b3 a5 b5, a = [a1, b1, a3, b3, a5, b5] := by
      match a, h1 with
      | [a, b, c, d, e, f], _ => exact ⟨a, b, c, d, e, f, rfl⟩
    have k1 := h2 a1 (by simp)
    have k2 := h2 b1 (by simp)
    have k3 := h2 a3 (by simp)
    have k4 := h2 b3 (by simp)
    have k5 := h2 a5 (by simp)
    have k6 := h2 b5 (by simp)
    have l1 := digit_lt k1
    have l2 := digit_lt k2
    have l3 := digit_lt k3
    have l4 := digit_lt k4
    have l5 := digit_lt k5
    have l6 := digit_lt k6
    obtain ⟨g1, g2, g3⟩ := h5
    have e1 : value [a1, b1] = t.hour := by simp [value] at h4 ⊢; omega
    have e2 : value [a3, b3] = t.min := by simp [value] at h4 ⊢; omega
    have e3 : value [a5, b5] = t.sec := by simp [value] at h4 ⊢; omega
    unfold parse6
    simp only [List.cons_append, List.nil_append, getnum_digits k1 k2, getnumFixed_digits k3 k4,
      getnumFixed_digits k5 k6, Option.bind_eq_bind, Option.bind_some, e1, e2, e3]
    rw [if_neg (by omega), if_neg (by omega), if_neg (by omega), parseFraction_iff.2 h3]
    simp [← h6]

end Verif.Element

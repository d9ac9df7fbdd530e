import Verif.Swift.Model
import Verif.Element.DateLemmas

/-
Property C42: dates in statements.
-/

namespace Verif.Swift

open GoLib Time
open Token.Spec (Digit DigitString value)
open Element.Spec (ExistingDate LeapYear)
open Element (parse8_iff existing_iff leap_iff)

theorem itoa_four {y : Int} (h1 : 1000 ≤ y) (h2 : y ≤ 9999) :
    ∃ a b c d, itoa y = [a, b, c, d] ∧ Digit a ∧ Digit b ∧ Digit c ∧ Digit d ∧ (value [a, b, c, d] : Int) = y := by
  obtain ⟨n, rfl⟩ : ∃ n : Nat, y = n := ⟨y.toNat, by omega⟩
  have hi : itoa (n : Int) = natDec n := by
    unfold itoa
    rw [if_neg (by omega)]
    simp
  have hl := natDec_length_le (n := n) (k := 4) (by decide) (by omega)
  have hd := natDec_digits n
  have hv : value (natDec n) = n := by rw [← digitsVal_eq]; exact digitsVal_natDec n
  rw [hi]
  have dig : ∀ {x : Byte}, Digit x → x.toNat - 48 ≤ 9 := fun h => by unfold Digit at h; omega
  match hn : natDec n with
  | [] => simp [hn, value] at hv; omega
  | [a] =>
    simp [hn, value] at hv
    have := dig (hd.2 a (by simp [hn]))
    omega
  | [a, b] =>
    simp [hn, value] at hv
    have := dig (hd.2 a (by simp [hn]))
    have := dig (hd.2 b (by simp [hn]))
    omega
  | [a, b, c] =>
    simp [hn, value] at hv
    have := dig (hd.2 a (by simp [hn]))
    have := dig (hd.2 b (by simp [hn]))
    have := dig (hd.2 c (by simp [hn]))
    omega
  | [a, b, c, d] =>
    refine ⟨a, b, c, d, rfl, hd.2 a (by simp [hn]), hd.2 b (by simp [hn]), hd.2 c (by simp [hn]), hd.2 d (by simp [hn]), ?_⟩
    rw [hn] at hv
    exact_mod_cast hv
  | a :: b :: c :: d :: e :: r => simp [hn] at hl

/-- The text is the date `t`, its year counted from `base`: digits for the year (none, if
`base` is the year), month and day of a date that exists. -/
def IsDate (base : Int) (v : Bytes) (t : Civil) : Prop :=
  (∀ b ∈ v, Digit b) ∧ ∃ yy mm dd : Nat, value v = yy * 10000 + mm * 100 + dd ∧ ExistingDate (base + yy) mm dd ∧
    t = ⟨base + yy, mm, dd, 0, 0, 0, 0⟩

theorem existing_bounds {y : Int} {m d : Nat} (h : ExistingDate y m d) : 1 ≤ m ∧ m ≤ 12 ∧ 1 ≤ d ∧ d ≤ 31 := by
  rw [existing_iff] at h
  have : daysIn m y ≤ 31 := by
    unfold daysIn
    split
    · split <;> omega
    · split <;> omega
  omega

theorem parse8_six {y : Int} (h1 : 1000 ≤ y) (h2 : y ≤ 9999) {v : Bytes} (hv : v.length = 6) {t : Civil} :
    parse8 ((itoa y).take 2 ++ v) = some t ↔ IsDate (y / 100 * 100) v t := by
  obtain ⟨a, b, c, d, hy, ha, hb, hc, hd, hval⟩ := itoa_four h1 h2
  rw [hy]
  match v, hv with
  | [p, q, r, s, x, z], _ =>
    simp only [List.take_succ_cons, List.take_zero, List.cons_append, List.nil_append]
    rw [parse8_iff]
    have hy' : (y / 100 : Int) = ((value [a, b] : Nat) : Int) := by
      simp [value] at hval ⊢
      unfold Digit at hc hd
      omega
    have e : value [a, b, p, q, r, s, x, z] = value [a, b] * 1000000 + value [p, q, r, s, x, z] := by
      simp [value]; omega
    constructor
    · rintro ⟨_, g1, g2, g3, g4⟩
      have hb := existing_bounds g3
      have gd : ∀ w ∈ [p, q, r, s, x, z], Digit w := fun w hw => g1 w (.tail _ (.tail _ hw))
      refine ⟨gd, ?_⟩
      have lt : value [p, q, r, s, x, z] < 1000000 := by
        have h1 := gd p (by simp)
        have h2 := gd q (by simp)
        have h3 := gd r (by simp)
        have h4 := gd s (by simp)
        have h5 := gd x (by simp)
        have h6 := gd z (by simp)
        unfold Digit at h1 h2 h3 h4 h5 h6
        simp [value]
        omega
      rw [e] at g2
      push_cast at g2
      refine ⟨value [p, q, r, s, x, z] / 10000, t.month, t.day, ?_, ?_, ?_⟩
      · omega
      · have : (y / 100 * 100 + ((value [p, q, r, s, x, z] / 10000 : Nat) : Int)) = t.year := by omega
        rw [this]; exact g3
      · have : (y / 100 * 100 + ((value [p, q, r, s, x, z] / 10000 : Nat) : Int)) = t.year := by omega
        rw [this]; exact g4
    · rintro ⟨gd, yy, mm, dd, g1, g2, rfl⟩
      have hb' := existing_bounds g2
      refine ⟨rfl, ?_, ?_, g2, rfl⟩
      · intro w hw
        simp only [List.mem_cons, List.not_mem_nil, or_false] at hw
        rcases hw with rfl | rfl | hw
        · exact ha
        · exact hb
        · exact gd w (by simpa using hw)
      · rw [e]
        push_cast
        omega

theorem parse8_four {y : Int} (h1 : 1000 ≤ y) (h2 : y ≤ 9999) {v : Bytes} (hv : v.length = 4) {t : Civil} :
    parse8 ((itoa y).take 4 ++ v) = some t ↔ IsDate y v t ∧ t.year = y := by
  obtain ⟨a, b, c, d, hy, ha, hb, hc, hd, hval⟩ := itoa_four h1 h2
  rw [hy]
  match v, hv with
  | [r, s, x, z], _ =>
    simp only [List.take_succ_cons, List.take_zero, List.cons_append, List.nil_append]
    rw [parse8_iff]
    have e : value [a, b, c, d, r, s, x, z] = value [a, b, c, d] * 10000 + value [r, s, x, z] := by
      simp [value]; omega
    constructor
    · rintro ⟨_, g1, g2, g3, g4⟩
      have hb := existing_bounds g3
      have gd : ∀ w ∈ [r, s, x, z], Digit w := fun w hw => g1 w (.tail _ (.tail _ (.tail _ (.tail _ hw))))
      have lt : value [r, s, x, z] < 10000 := by
        have h3 := gd r (by simp)
        have h4 := gd s (by simp)
        have h5 := gd x (by simp)
        have h6 := gd z (by simp)
        unfold Digit at h3 h4 h5 h6
        simp [value]
        omega
      rw [e] at g2
      push_cast at g2
      have hy : t.year = y := by omega
      refine ⟨⟨gd, 0, t.month, t.day, ?_, ?_, ?_⟩, hy⟩
      · omega
      · rw [← hy]; simpa using g3
      · rw [← hy]; simpa using g4
    · rintro ⟨⟨gd, yy, mm, dd, g1, g2, rfl⟩, hyy⟩
      have hb' := existing_bounds g2
      simp only at hyy
      refine ⟨rfl, ?_, ?_, g2, rfl⟩
      · intro w hw
        simp only [List.mem_cons, List.not_mem_nil, or_false] at hw
        rcases hw with rfl | rfl | rfl | rfl | hw
        · exact ha
        · exact hb
        · exact hc
        · exact hd
        · exact gd w (by simpa using hw)
      · rw [e]
        push_cast
        omega

/-- What becomes of the 29th or 30th of February of year `y`, when counted on from the 1st. -/
def overflow (y : Int) (d : Nat) (t : Civil) : Prop :=
  (d = 29 ∧ LeapYear y ∧ t = ⟨y, 2, 29, 0, 0, 0, 0⟩) ∨ (d = 29 ∧ ¬ LeapYear y ∧ t = ⟨y, 3, 1, 0, 0, 0, 0⟩) ∨
  (d = 30 ∧ LeapYear y ∧ t = ⟨y, 3, 1, 0, 0, 0, 0⟩) ∨ (d = 30 ∧ ¬ LeapYear y ∧ t = ⟨y, 3, 2, 0, 0, 0, 0⟩)

theorem overflow_date {y : Int} {d : Nat} {t : Civil} (hd : d = 29 ∨ d = 30) : date y 2 d = t ↔ overflow y d t := by
  have hl := leap_iff y
  unfold date overflow daysIn
  by_cases h : LeapYear y
  · have := hl.2 h
    rcases hd with rfl | rfl <;> simp [h, this, eq_comm]
  · have : isLeap y = false := by rw [Bool.eq_false_iff]; exact fun hh => h (hl.1 hh)
    rcases hd with rfl | rfl <;> simp [h, this, eq_comm]

theorem parseDate_gen {v : Bytes} {y : Int} {t : Civil} {n : Nat} (hn : n = if v.length = 6 then 2 else 4)
    (hlen : n ≤ (itoa y).length) :
    (parseDate v y = .ok t ↔ parse8 ((itoa y).take n ++ v) = some t ∨
      (parse8 ((itoa y).take n ++ v) = none ∧
        ((b!"0229" <:+ (itoa y).take n ++ v ∧ date y 2 29 = t) ∨
         (b!"0230" <:+ (itoa y).take n ++ v ∧ date y 2 30 = t)))) ∧ parseDate v y ≠ .panic := by
  unfold parseDate
  rw [← hn]
  dsimp only
  rw [if_neg (by omega)]
  cases h : parse8 ((itoa y).take n ++ v) with
  | some u => simp
  | none =>
    simp only
    by_cases h1 : [48, 50, 50, 57].isSuffixOf ((itoa y).take n ++ v) = true
    · have h1' := List.isSuffixOf_iff_suffix.1 h1
      rw [if_pos h1]
      have h2 : ¬ (b!"0230" <:+ (itoa y).take n ++ v) := by
        rintro ⟨x, hx⟩
        obtain ⟨z, hz⟩ := h1'
        have : z ++ [48, 50, 50, 57] = x ++ [48, 50, 51, 48] := hz.trans hx.symm
        have := (List.append_inj' this rfl).2
        simp at this
      have h1'' : b!"0229" <:+ (itoa y).take n ++ v := h1'
      simp [h1'', h2]
    · rw [if_neg h1]
      have h1' : ¬ (b!"0229" <:+ (itoa y).take n ++ v) := fun hh => h1 (List.isSuffixOf_iff_suffix.2 hh)
      by_cases h2 : [48, 50, 51, 48].isSuffixOf ((itoa y).take n ++ v) = true
      · have h2' : b!"0230" <:+ (itoa y).take n ++ v := List.isSuffixOf_iff_suffix.1 h2
        rw [if_pos h2]
        simp [h1', h2']
      · rw [if_neg h2]
        have h2' : ¬ (b!"0230" <:+ (itoa y).take n ++ v) := fun hh => h2 (List.isSuffixOf_iff_suffix.2 hh)
        simp [h1', h2']

theorem suffix_right {p a v : Bytes} (h : p.length ≤ v.length) : p <:+ a ++ v ↔ p <:+ v := by
  constructor
  · intro hp
    exact List.suffix_of_suffix_length_le hp (List.suffix_append a v) h
  · intro hp
    exact hp.trans (List.suffix_append a v)

/-- C42: six characters are read as a date of the reference year's century, if such a date
exists; otherwise, if they end in 0229 or 0230, as that day of February of the reference year,
counted on into March; otherwise they are an error. -/
theorem C42_six {y : Int} (h1 : 1000 ≤ y) (h2 : y ≤ 9999) {v : Bytes} (hv : v.length = 6) (t : Civil) :
    (parseDate v y = .ok t ↔ IsDate (y / 100 * 100) v t ∨
      ((∀ u, ¬ IsDate (y / 100 * 100) v u) ∧
        ((b!"0229" <:+ v ∧ overflow y 29 t) ∨ (b!"0230" <:+ v ∧ overflow y 30 t)))) ∧ parseDate v y ≠ .panic := by
  have hl : 2 ≤ (itoa y).length := by obtain ⟨a, b, c, d, hy, _⟩ := itoa_four h1 h2; simp [hy]
  obtain ⟨g1, g2⟩ := parseDate_gen (t := t) (v := v) (n := 2) (by simp [hv]) hl
  refine ⟨?_, g2⟩
  rw [g1, parse8_six h1 h2 hv, overflow_date (Or.inl rfl), overflow_date (Or.inr rfl), suffix_right (by simp [hv]),
    suffix_right (by simp [hv])]
  have : parse8 ((itoa y).take 2 ++ v) = none ↔ ∀ u, ¬ IsDate (y / 100 * 100) v u := by
    constructor
    · intro h u hu
      rw [← parse8_six h1 h2 hv, h] at hu
      simp at hu
    · intro h
      cases hp : parse8 ((itoa y).take 2 ++ v) with
      | none => rfl
      | some u => exact absurd ((parse8_six h1 h2 hv).1 hp) (h u)
  rw [this]

/-- C42: four characters are read as a day of the reference year, if it exists; otherwise, if
they are 0229 or 0230, as that day of February counted on into March; otherwise they are an
error. -/
theorem C42_four {y : Int} (h1 : 1000 ≤ y) (h2 : y ≤ 9999) {v : Bytes} (hv : v.length = 4) (t : Civil) :
    (parseDate v y = .ok t ↔ (IsDate y v t ∧ t.year = y) ∨
      ((∀ u, ¬ (IsDate y v u ∧ u.year = y)) ∧ ((v = b!"0229" ∧ overflow y 29 t) ∨ (v = b!"0230" ∧ overflow y 30 t)))) ∧
    parseDate v y ≠ .panic := by
  have hl : 4 ≤ (itoa y).length := by obtain ⟨a, b, c, d, hy, _⟩ := itoa_four h1 h2; simp [hy]
  obtain ⟨g1, g2⟩ := parseDate_gen (t := t) (v := v) (n := 4) (by simp [hv]) hl
  refine ⟨?_, g2⟩
  have hs : ∀ p : Bytes, p.length = 4 → (p <:+ v ↔ v = p) := by
    intro p hp
    constructor
    · intro h
      exact (h.eq_of_length (by omega)).symm
    · rintro rfl
      exact List.suffix_refl _
  rw [g1, parse8_four h1 h2 hv, overflow_date (Or.inl rfl), overflow_date (Or.inr rfl), suffix_right (by simp [hv]),
    suffix_right (by simp [hv]), hs _ rfl, hs _ rfl]
  have : parse8 ((itoa y).take 4 ++ v) = none ↔ ∀ u, ¬ (IsDate y v u ∧ u.year = y) := by
    constructor
    · intro h u hu
      rw [← parse8_four h1 h2 hv, h] at hu
      simp at hu
    · intro h
      cases hp : parse8 ((itoa y).take 4 ++ v) with
      | none => rfl
      | some u => exact absurd ((parse8_four h1 h2 hv).1 hp) (h u)
  rw [this]

/-- A value date in an existing day, and three days that do not exist: the 30th of February
of 2023 is taken for a day of the current year. -/
example : parseDate b!"231214" 2026 = .ok ⟨2023, 12, 14, 0, 0, 0, 0⟩ ∧ parseDate b!"991231" 2026 = .ok ⟨2099, 12, 31, 0, 0, 0, 0⟩ ∧
    parseDate b!"230230" 2026 = .ok ⟨2026, 3, 2, 0, 0, 0, 0⟩ ∧ parseDate b!"0229" 2023 = .ok ⟨2023, 3, 1, 0, 0, 0, 0⟩ ∧
    parseDate b!"230431" 2026 = .err := by decide +kernel

end Verif.Swift

import Verif.TimeArith
import Verif.Swift.LineSpec
import Mathlib.Tactic.IntervalCases

/-
The arithmetic of `TimeArith` agrees with the calendar: every instant has one date.
-/

namespace Verif.Time

open Swift.Spec (dayNumber)

/-- The components of an existing date and time of day. -/
def Exists (t : Civil) : Prop :=
  1 ≤ t.month ∧ t.month ≤ 12 ∧ 1 ≤ t.day ∧ t.day ≤ daysIn t.month t.year ∧ t.hour < 24 ∧ t.min < 60 ∧ t.sec < 60 ∧
    t.nsec < 1000000000

theorem isLeap_iff (y : Int) : isLeap y = true ↔ y % 4 = 0 ∧ (y % 100 ≠ 0 ∨ y % 400 = 0) := by
  simp [isLeap]

theorem daysBeforeMonth_eq (y : Int) {m : Nat} (h1 : 1 ≤ m) (h2 : m ≤ 12) :
    (daysBeforeMonth y m : Int) = Swift.Spec.monthStart m + if 2 < m ∧ y % 4 = 0 ∧ (y % 100 ≠ 0 ∨ y % 400 = 0) then 1 else 0 := by
  by_cases h : y % 4 = 0 ∧ (y % 100 ≠ 0 ∨ y % 400 = 0)
  · have hl := (isLeap_iff y).2 h
    interval_cases m <;> simp [daysBeforeMonth, daysIn, Swift.Spec.monthStart, hl, h]
  · have hl : isLeap y = false := by simpa using mt (isLeap_iff y).1 h
    interval_cases m <;> simp [daysBeforeMonth, daysIn, Swift.Spec.monthStart, hl, h]

/-- The days of a month, as the code has it, are those between the first days of the months of
the calendar. -/
theorem days_eq (y : Int) {m d : Nat} (h1 : 1 ≤ m) (h2 : m ≤ 12) :
    daysBeforeYear y + daysBeforeMonth y m + (d - 1 : Int) = dayNumber y m d - 1 := by
  rw [daysBeforeMonth_eq y h1 h2]
  simp only [daysBeforeYear, dayNumber, Swift.Spec.yearStart]
  omega

/-- The length of a year. -/
theorem yearLength (y : Int) : daysBeforeYear (y + 1) = daysBeforeYear y + if isLeap y then 366 else 365 := by
  by_cases h : isLeap y
  · have := (isLeap_iff y).1 h
    rw [if_pos h]
    simp only [daysBeforeYear]
    omega
  · have : ¬ (y % 4 = 0 ∧ (y % 100 ≠ 0 ∨ y % 400 = 0)) := mt (isLeap_iff y).2 h
    rw [if_neg h]
    simp only [daysBeforeYear]
    omega

theorem yearOfDay_spec (n : Int) :
    daysBeforeYear (yearOfDay n).1 + (yearOfDay n).2 = n ∧
      (yearOfDay n).2 < if isLeap (yearOfDay n).1 then 366 else 365 := by
  suffices h : daysBeforeYear (yearOfDay n).1 + (yearOfDay n).2 = n ∧ (yearOfDay n).2 ≤ 365 ∧
      (¬ isLeap (yearOfDay n).1 = true → (yearOfDay n).2 < 365) by
    refine ⟨h.1, ?_⟩
    split
    · have := h.2.1
      omega
    · exact h.2.2 ‹_›
  simp only [yearOfDay]
  generalize hc : n % 146097 = c
  generalize hk : n / 146097 = k
  have hn : n = 146097 * k + c := by omega
  have c0 : 0 ≤ c := by omega
  have c1 : c < 146097 := by omega
  generalize hq : min (c / 36524) 3 = q100
  have q0 : 0 ≤ q100 ∧ q100 ≤ 3 := by omega
  generalize hr : c - 36524 * q100 = r
  have hcr : c = 36524 * q100 + r := by omega
  have r0 : 0 ≤ r := by omega
  have r1 : r ≤ 36524 := by omega
  have r2 : q100 < 3 → r < 36524 := by omega
  generalize ha : r / 1461 = a
  generalize hb : r % 1461 = b
  have hra : r = 1461 * a + b := by omega
  have a0 : 0 ≤ a ∧ a ≤ 24 := by omega
  have b0 : 0 ≤ b ∧ b < 1461 := by omega
  have a1 : a = 24 → q100 < 3 → b < 1460 := by omega
  generalize he : min (b / 365) 3 = q1
  have e0 : 0 ≤ q1 ∧ q1 ≤ 3 := by omega
  have e1 : 0 ≤ b - 365 * q1 := by omega
  have e2 : b - 365 * q1 ≤ 365 := by omega
  have e3 : q1 < 3 → b - 365 * q1 < 365 := by omega
  clear hc hk hq hr ha hb he
  have h4 : (400 * k + 100 * q100 + 4 * a + q1 + 1 - 1) / 4 = 100 * k + 25 * q100 + a := by omega
  have h100 : (400 * k + 100 * q100 + 4 * a + q1 + 1 - 1) / 100 = 4 * k + q100 := by omega
  have h400 : (400 * k + 100 * q100 + 4 * a + q1 + 1 - 1) / 400 = k := by omega
  refine ⟨?_, ?_, fun hl => ?_⟩
  · rw [Int.toNat_of_nonneg e1]
    simp only [daysBeforeYear]
    rw [h4, h100, h400]
    omega
  · omega
  · have hl' := mt (isLeap_iff _).2 hl
    by_cases q3 : q1 = 3
    · subst q3
      have m4 : (400 * k + 100 * q100 + 4 * a + 3 + 1) % 4 = 0 := by omega
      have : (400 * k + 100 * q100 + 4 * a + 3 + 1) % 100 = 0 ∧ (400 * k + 100 * q100 + 4 * a + 3 + 1) % 400 ≠ 0 := by
        by_contra hcon
        exact hl' ⟨m4, by omega⟩
      have a24 : a = 24 := by omega
      have qlt : q100 < 3 := by omega
      have := a1 a24 qlt
      omega
    · have := e3 (by omega)
      omega

/-- All 366 days of a leap year and all 365 of a common year. -/
theorem monthOfDay_spec (y : Int) {d : Nat} (h : d < if isLeap y then 366 else 365) :
    1 ≤ (monthOfDay y 11 1 d).1 ∧ (monthOfDay y 11 1 d).1 ≤ 12 ∧ 1 ≤ (monthOfDay y 11 1 d).2 ∧
      (monthOfDay y 11 1 d).2 ≤ daysIn (monthOfDay y 11 1 d).1 y ∧
      daysBeforeMonth y (monthOfDay y 11 1 d).1 + ((monthOfDay y 11 1 d).2 - 1) = d := by
  by_cases hl : isLeap y
  · simp only [hl, if_true] at h
    have : ∀ d < 366, 1 ≤ (monthOfDay 4 11 1 d).1 ∧ (monthOfDay 4 11 1 d).1 ≤ 12 ∧ 1 ≤ (monthOfDay 4 11 1 d).2 ∧
      (monthOfDay 4 11 1 d).2 ≤ daysIn (monthOfDay 4 11 1 d).1 4 ∧
      daysBeforeMonth 4 (monthOfDay 4 11 1 d).1 + ((monthOfDay 4 11 1 d).2 - 1) = d := by decide +kernel
    have hd : ∀ m, daysIn m y = daysIn m 4 := fun m => by simp [daysIn, hl, show isLeap 4 = true from rfl]
    have hb : ∀ m, daysBeforeMonth y m = daysBeforeMonth 4 m := fun m => by
      induction m with
      | zero => rfl
      | succ m ih => cases m <;> simp [daysBeforeMonth, *] at *
    have hm : ∀ fuel m d, monthOfDay y fuel m d = monthOfDay 4 fuel m d := fun fuel => by
      induction fuel with
      | zero => intro m d; rfl
      | succ f ih => intro m d; simp [monthOfDay, hd, ih]
    simpa only [hm, hd, hb] using this d h
  · simp only [hl] at h
    have : ∀ d < 365, 1 ≤ (monthOfDay 1 11 1 d).1 ∧ (monthOfDay 1 11 1 d).1 ≤ 12 ∧ 1 ≤ (monthOfDay 1 11 1 d).2 ∧
      (monthOfDay 1 11 1 d).2 ≤ daysIn (monthOfDay 1 11 1 d).1 1 ∧
      daysBeforeMonth 1 (monthOfDay 1 11 1 d).1 + ((monthOfDay 1 11 1 d).2 - 1) = d := by decide +kernel
    have hd : ∀ m, daysIn m y = daysIn m 1 := fun m => by simp [daysIn, hl, show isLeap 1 = false from rfl]
    have hb : ∀ m, daysBeforeMonth y m = daysBeforeMonth 1 m := fun m => by
      induction m with
      | zero => rfl
      | succ m ih => cases m <;> simp [daysBeforeMonth, *] at *
    have hm : ∀ fuel m d, monthOfDay y fuel m d = monthOfDay 1 fuel m d := fun fuel => by
      induction fuel with
      | zero => intro m d; rfl
      | succ f ih => intro m d; simp [monthOfDay, hd, ih]
    simpa only [hm, hd, hb] using this d (by simpa using h)

/-- Every instant is the instant of an existing date and time. -/
theorem civil_spec (i : Int) : Exists (civil i) ∧ instant (civil i) = i := by
  simp only [civil]
  have hy := yearOfDay_spec (i / 1000000000 / 86400)
  generalize yearOfDay (i / 1000000000 / 86400) = yd at hy
  obtain ⟨y, d⟩ := yd
  have hm := monthOfDay_spec y hy.2
  generalize monthOfDay y 11 1 d = md at hm
  obtain ⟨m, k⟩ := md
  obtain ⟨m1, m2, k1, k2, hk⟩ := hm
  refine ⟨⟨m1, m2, k1, k2, ?_, ?_, ?_, ?_⟩, ?_⟩
  · simp only []; omega
  · simp only []; omega
  · simp only []; omega
  · simp only []; omega
  · simp only [instant]
    have h1 := hy.1
    simp only at h1
    have h2 : ((daysBeforeMonth y m : Nat) : Int) + ((k : Int) - 1) = d := by simp only at hk; omega
    clear hy
    generalize daysBeforeYear y = a at *
    generalize ((daysBeforeMonth y m : Nat) : Int) = b at *
    omega

theorem daysBeforeMonth_mono (y : Int) {m n : Nat} (h1 : 1 ≤ m) (h : m < n) :
    daysBeforeMonth y m + daysIn m y ≤ daysBeforeMonth y n := by
  induction n with
  | zero => omega
  | succ n ih =>
    rcases Nat.lt_or_ge m n with hlt | hge
    · have := ih hlt
      cases n with
      | zero => omega
      | succ n => simp only [daysBeforeMonth]; omega
    · have : m = n := by omega
      subst this
      cases m with
      | zero => omega
      | succ m => simp [daysBeforeMonth]

theorem daysBeforeYear_mono {a b : Int} (h : a < b) :
    daysBeforeYear a + (if isLeap a then 366 else 365) ≤ daysBeforeYear b := by
  rw [← yearLength]
  simp only [daysBeforeYear]
  omega

theorem daysBeforeMonth_thirteen (y : Int) : daysBeforeMonth y 13 = if isLeap y then 366 else 365 := by
  by_cases hl : isLeap y <;> simp [daysBeforeMonth, daysIn, hl]

/-- An instant has one date. -/
theorem instant_inj {t u : Civil} (ht : Exists t) (hu : Exists u) (h : instant t = instant u) : t = u := by
  obtain ⟨y1, m1, d1, h1, n1, s1, f1⟩ := t
  obtain ⟨y2, m2, d2, h2, n2, s2, f2⟩ := u
  obtain ⟨a1, a2, a3, a4, a5, a6, a7, a8⟩ := ht
  obtain ⟨b1, b2, b3, b4, b5, b6, b7, b8⟩ := hu
  simp only at *
  simp only [instant] at h
  have hd : daysBeforeYear y1 + daysBeforeMonth y1 m1 + (d1 - 1 : Int) =
      daysBeforeYear y2 + daysBeforeMonth y2 m2 + (d2 - 1 : Int) ∧ h1 = h2 ∧ n1 = n2 ∧ s1 = s2 ∧ f1 = f2 := by
    generalize daysBeforeYear y1 + daysBeforeMonth y1 m1 + (d1 - 1 : Int) = p at *
    generalize daysBeforeYear y2 + daysBeforeMonth y2 m2 + (d2 - 1 : Int) = q at *
    omega
  obtain ⟨hd, rfl, rfl, rfl, rfl⟩ := hd
  have l1 := daysBeforeMonth_mono y1 a1 (show m1 < 13 by omega)
  have l2 := daysBeforeMonth_mono y2 b1 (show m2 < 13 by omega)
  rw [daysBeforeMonth_thirteen] at l1 l2
  have hy : y1 = y2 := by
    rcases lt_trichotomy y1 y2 with hlt | heq | hgt
    · have := daysBeforeYear_mono hlt
      split at l1 <;> simp_all <;> omega
    · exact heq
    · have := daysBeforeYear_mono hgt
      split at l2 <;> simp_all <;> omega
  subst hy
  have hm : m1 = m2 := by
    rcases lt_trichotomy m1 m2 with hlt | heq | hgt
    · have := daysBeforeMonth_mono y1 a1 hlt
      omega
    · exact heq
    · have := daysBeforeMonth_mono y1 b1 hgt
      omega
  subst hm
  have : d1 = d2 := by omega
  rw [this]

theorem civil_instant {t : Civil} (h : Exists t) : civil (instant t) = t :=
  instant_inj (civil_spec _).1 h (civil_spec _).2

end Verif.Time

import Verif.Domain.Today

/-!
C131: a time frame from a date ends on the day it is in UTC.
-/

namespace Verif.Domain.Today

/-! ### The calendar -/

/-- A year is a leap year. -/
def Leap (y : Int) : Prop := y % 4 = 0 ∧ (y % 100 ≠ 0 ∨ y % 400 = 0)

instance (y : Int) : Decidable (Leap y) := inferInstanceAs (Decidable (_ ∧ _))

/-- The number of days of a month. -/
def monthLength (y m : Int) : Int :=
  if m = 2 then (if Leap y then 29 else 28)
  else if m = 4 ∨ m = 6 ∨ m = 9 ∨ m = 11 then 30 else 31

/-- A date that exists in the Gregorian calendar. -/
def IsDate (d : YMD) : Prop :=
  1 ≤ d.month ∧ d.month ≤ 12 ∧ 1 ≤ d.day ∧ d.day ≤ monthLength d.year d.month

/-- The date after a date. -/
def next (d : YMD) : YMD :=
  if d.day < monthLength d.year d.month then ⟨d.year, d.month, d.day + 1⟩
  else if d.month < 12 then ⟨d.year, d.month + 1, 1⟩
  else ⟨d.year + 1, 1, 1⟩

/-- The parts into which `civil` takes a number of days. -/
theorem civil_parts (n : Int) : ∃ e c q y doy : Int, n = 146097 * e + 36524 * c + 1461 * q + 365 * y + doy - 719468
    ∧ (0 ≤ c ∧ c ≤ 3) ∧ (0 ≤ q ∧ q ≤ 24) ∧ (0 ≤ y ∧ y ≤ 3) ∧ (0 ≤ doy ∧ doy ≤ 365)
    ∧ (doy = 365 → y = 3 ∧ (q = 24 → c = 3))
    ∧ civil n = (if (5 * doy + 2) / 153 < 10
        then ⟨400 * e + 100 * c + 4 * q + y, (5 * doy + 2) / 153 + 3, doy - (153 * ((5 * doy + 2) / 153) + 2) / 5 + 1⟩
        else ⟨400 * e + 100 * c + 4 * q + y + 1, (5 * doy + 2) / 153 - 9, doy - (153 * ((5 * doy + 2) / 153) + 2) / 5 + 1⟩) := by
  refine ⟨(n + 719468) / 146097, min ((n + 719468) % 146097 / 36524) 3, _, _, _, ?_, ?_, ?_, ?_, ?_, ?_, rfl⟩
  · omega
  · omega
  · omega
  · omega
  · omega
  · omega

theorem year_parts {e c q y : Int} (hc : 0 ≤ c ∧ c ≤ 3) (hq : 0 ≤ q ∧ q ≤ 24) (hy : 0 ≤ y ∧ y ≤ 3) :
    (400 * e + 100 * c + 4 * q + y) / 4 = 100 * e + 25 * c + q
    ∧ (400 * e + 100 * c + 4 * q + y) / 100 = 4 * e + c
    ∧ (400 * e + 100 * c + 4 * q + y) / 400 = e := by
  refine ⟨by omega, by omega, by omega⟩

theorem daysTo_civil (n : Int) : daysTo (civil n) = n := by
  obtain ⟨e, c, q, y, doy, hn, hc, hq, hy, hd, -, h⟩ := civil_parts n
  obtain ⟨h4, h100, h400⟩ := year_parts (e := e) hc hq hy
  rw [h, hn]
  have hm : 0 ≤ (5 * doy + 2) / 153 ∧ (5 * doy + 2) / 153 ≤ 11 := by omega
  generalize (5 * doy + 2) / 153 = mp at *
  split
  · simp only [daysTo]
    rw [if_neg (by omega), if_neg (by omega), h4, h100, h400, show mp + 3 - 3 = mp by omega]
    omega
  · simp only [daysTo]
    rw [if_pos (by omega), if_pos (by omega), show ∀ a : Int, a + 1 - 1 = a by omega, h4, h100, h400,
      show mp - 9 + 9 = mp by omega]
    omega

theorem civil_exists (n : Int) : IsDate (civil n) := by
  obtain ⟨e, c, q, y, doy, hn, hc, hq, hy, hd, hl, h⟩ := civil_parts n
  rw [h]
  clear h hn
  have hm : (5 * doy + 2) / 153 = 0 ∨ (5 * doy + 2) / 153 = 1 ∨ (5 * doy + 2) / 153 = 2 ∨ (5 * doy + 2) / 153 = 3
    ∨ (5 * doy + 2) / 153 = 4 ∨ (5 * doy + 2) / 153 = 5 ∨ (5 * doy + 2) / 153 = 6 ∨ (5 * doy + 2) / 153 = 7
    ∨ (5 * doy + 2) / 153 = 8 ∨ (5 * doy + 2) / 153 = 9 ∨ (5 * doy + 2) / 153 = 10 ∨ (5 * doy + 2) / 153 = 11 := by omega
  rcases hm with h | h | h | h | h | h | h | h | h | h | h | h <;> rw [h] <;>
    simp [IsDate, monthLength] <;> try omega
  by_cases hL : Leap (400 * e + 100 * c + 4 * q + y + 1)
  · rw [if_pos hL]; omega
  · rw [if_neg hL]; unfold Leap at hL; omega

/-- The days before March of a year. -/
def yearStart (y : Int) : Int := 365 * y + y / 4 - y / 100 + y / 400

theorem yearStart_succ (y : Int) : yearStart (y + 1) = yearStart y + (if Leap (y + 1) then 366 else 365) := by
  by_cases hL : Leap (y + 1)
  · rw [if_pos hL]; unfold Leap at hL; simp only [yearStart]; omega
  · rw [if_neg hL]; unfold Leap at hL; simp only [yearStart]; omega

theorem yearStart_mono {y y' : Int} (h : y ≤ y') : yearStart y ≤ yearStart y' := by
  simp only [yearStart]
  omega

theorem daysTo_next (d : YMD) (h : IsDate d) : daysTo (next d) = daysTo d + 1 := by
  obtain ⟨y, m, dd⟩ := d
  obtain ⟨h1, h2, h3, h4⟩ := h
  simp only at h1 h2 h3 h4
  have hm : m = 1 ∨ m = 2 ∨ m = 3 ∨ m = 4 ∨ m = 5 ∨ m = 6 ∨ m = 7 ∨ m = 8 ∨ m = 9 ∨ m = 10 ∨ m = 11
    ∨ m = 12 := by omega
  have hf : m = 2 ∧ Leap y ∧ monthLength y m = 29 ∨ m = 2 ∧ ¬ Leap y ∧ monthLength y m = 28
      ∨ m ≠ 2 ∧ monthLength y m = (if m = 4 ∨ m = 6 ∨ m = 9 ∨ m = 11 then 30 else 31) := by
    unfold monthLength
    by_cases a : m = 2 <;> by_cases b : Leap y <;> simp [a, b]
  unfold next Leap at *
  generalize monthLength y m = l at *
  simp only
  by_cases a : dd < l
  · rw [if_pos a]
    simp only [daysTo]
    omega
  · rw [if_neg a]
    by_cases b : m < 12
    · rw [if_pos b]
      rcases hm with h | h | h | h | h | h | h | h | h | h | h | h <;> subst h <;> simp [daysTo] at * <;> omega
    · rw [if_neg b]
      obtain rfl : m = 12 := by omega
      simp [daysTo] at *
      omega

/-- Two dates that exist and are as many days away are the same. -/
theorem daysTo_inj {d d' : YMD} (h : IsDate d) (h' : IsDate d') (he : daysTo d = daysTo d') : d = d' := by
  have key : ∀ d : YMD, IsDate d → ∃ Y D : Int, daysTo d = yearStart Y + D - 719468 ∧ 0 ≤ D
      ∧ D < (if Leap (Y + 1) then 366 else 365)
      ∧ ∃ mp, 0 ≤ mp ∧ mp ≤ 11 ∧ D = (153 * mp + 2) / 5 + d.day - 1 ∧ d.day ≤ (153 * (mp + 1) + 2) / 5 - (153 * mp + 2) / 5
        ∧ 1 ≤ d.day ∧ (d.month ≤ 2 ∧ Y = d.year - 1 ∧ mp = d.month + 9 ∨ 2 < d.month ∧ Y = d.year ∧ mp = d.month - 3) := by
    intro d ⟨h1, h2, h3, h4⟩
    obtain ⟨y, m, dd⟩ := d
    simp only at h1 h2 h3 h4
    have hm : m = 1 ∨ m = 2 ∨ m = 3 ∨ m = 4 ∨ m = 5 ∨ m = 6 ∨ m = 7 ∨ m = 8 ∨ m = 9 ∨ m = 10 ∨ m = 11
      ∨ m = 12 := by omega
    by_cases hm2 : m ≤ 2
    · refine ⟨y - 1, (153 * (m + 9) + 2) / 5 + dd - 1, ?_, ?_, ?_, m + 9, ?_⟩
      · simp only [daysTo, yearStart, if_pos hm2]; omega
      · omega
      · rw [show y - 1 + 1 = y by omega]
        rcases hm with h | h | h | h | h | h | h | h | h | h | h | h <;> subst h <;> simp [monthLength] at * <;> split <;> simp_all <;> omega
      · rcases hm with h | h | h | h | h | h | h | h | h | h | h | h <;> subst h <;> simp [monthLength] at * <;> (try split at h4) <;> omega
    · refine ⟨y, (153 * (m - 3) + 2) / 5 + dd - 1, ?_, ?_, ?_, m - 3, ?_⟩
      · simp only [daysTo, yearStart, if_neg hm2]; omega
      · omega
      · rcases hm with h | h | h | h | h | h | h | h | h | h | h | h <;> subst h <;> simp [monthLength] at * <;> split <;> omega
      · rcases hm with h | h | h | h | h | h | h | h | h | h | h | h <;> subst h <;> simp [monthLength] at * <;> omega
  obtain ⟨Y, D, e, d0, d1, mp, m0, m1, hD, hl, hd, hY⟩ := key d h
  obtain ⟨Y', D', e', d0', d1', mp', m0', m1', hD', hl', hd', hY'⟩ := key d' h'
  have hYY : Y = Y' := by
    rcases Int.lt_trichotomy Y Y' with hlt | heq | hgt
    · have a := yearStart_mono (show Y + 1 ≤ Y' by omega)
      rw [yearStart_succ] at a
      omega
    · exact heq
    · have a := yearStart_mono (show Y' + 1 ≤ Y by omega)
      rw [yearStart_succ] at a
      omega
  subst hYY
  have hDD : D = D' := by omega
  have hmm : mp = mp' := by
    rcases Int.lt_trichotomy mp mp' with hlt | heq | hgt
    · have : (153 * (mp + 1) + 2) / 5 ≤ (153 * mp' + 2) / 5 := by omega
      omega
    · exact heq
    · have : (153 * (mp' + 1) + 2) / 5 ≤ (153 * mp + 2) / 5 := by omega
      omega
  obtain ⟨y, m, dd⟩ := d
  obtain ⟨y', m', dd'⟩ := d'
  subst hmm
  simp only at hY hY' hD hD'
  have b1 := h.1
  have b2 := h.2.1
  have b1' := h'.1
  have b2' := h'.2.1
  simp only at hd hd' hl hl' b1 b2 b1' b2'
  have hym : y = y' ∧ m = m' := by
    rcases hY with ⟨a, b, c⟩ | ⟨a, b, c⟩ <;> rcases hY' with ⟨a', b', c'⟩ | ⟨a', b', c'⟩ <;>
      constructor <;> omega
  obtain ⟨rfl, rfl⟩ := hym
  obtain rfl : dd = dd' := by omega
  rfl

/-- What a clock shows: one day after the other, beginning with 1970-01-01, and every date
exists. -/
theorem civil_succ (n : Int) : civil (n + 1) = next (civil n) := by
  have hn := daysTo_next (civil n) (civil_exists n)
  rw [daysTo_civil] at hn
  refine daysTo_inj (civil_exists _) ?_ (by rw [daysTo_civil, hn])
  obtain ⟨h1, h2, h3, h4⟩ := civil_exists n
  unfold next
  generalize civil n = d at *
  have hl : ∀ y m, 28 ≤ monthLength y m := by
    intro y m; unfold monthLength; split <;> split <;> omega
  split
  · exact ⟨h1, h2, by simp only; omega, by simp only; omega⟩
  · split
    · exact ⟨by simp only; omega, by simp only; omega, by simp, by have := hl d.year (d.month + 1); simp only; omega⟩
    · exact ⟨by simp, by simp, by simp, by have := hl (d.year + 1) 1; simp only; omega⟩

theorem civil_daysTo {d : YMD} (h : IsDate d) : civil (daysTo d) = d :=
  daysTo_inj (civil_exists _) h (daysTo_civil _)

theorem day_midnight (d : YMD) : (midnight d).day = daysTo d := by
  simp [midnight, Moment.day, utc]

theorem day_end (now d : Moment) :
    (timeframeFromDate now d).endDate.day = (now.unix + d.zone now.unix) / 86400 := by
  show (midnight (civil (now.in d.zone).day)).day = _
  rw [day_midnight, daysTo_civil]
  rfl

/-! ### Properties -/

/-- **C131 (the calendar)**: the dates of consecutive days are the consecutive dates of the
Gregorian calendar from 1970-01-01 on and back, and `time.Date` inverts them. -/
theorem C131_calendar :
    civil 0 = ⟨1970, 1, 1⟩ ∧ (∀ n, IsDate (civil n)) ∧ (∀ n, civil (n + 1) = next (civil n))
    ∧ (∀ n, daysTo (civil n) = n) ∧ ∀ d, IsDate d → civil (daysTo d) = d :=
  ⟨by decide +kernel, civil_exists, civil_succ, daysTo_civil, fun _ h => civil_daysTo h⟩

/-- **C131 (dates)**: `Date` makes midnight UTC of the given date whatever the location, and
`NewShortDate` midnight UTC of the date the clock shows where the time was read. -/
theorem C131_date (d : YMD) (h : IsDate d) (location : Zone) (t : Moment) :
    (date d location).zone = utc ∧ (date d location).unix % 86400 = 0 ∧ civil (date d location).day = d
    ∧ (newShortDate t).zone = utc ∧ (newShortDate t).unix % 86400 = 0
    ∧ civil (newShortDate t).day = civil t.day := by
  refine ⟨rfl, by simp [date, midnight], ?_, rfl, by simp [newShortDate, date, midnight], ?_⟩
  · rw [date, day_midnight, civil_daysTo h]
  · rw [newShortDate, date, day_midnight, civil_daysTo (civil_exists _)]

/-- **C131 (the frame)**: `TimeframeFromDate` keeps the start; the end is midnight UTC of the
date that the clock shows at the location of the start. -/
theorem C131_frame (now d : Moment) :
    (timeframeFromDate now d).startDate = d
    ∧ (timeframeFromDate now d).endDate.zone = utc
    ∧ (timeframeFromDate now d).endDate.unix = 86400 * ((now.unix + d.zone now.unix) / 86400) := by
  refine ⟨rfl, rfl, ?_⟩
  simp only [timeframeFromDate, newShortDate, date, midnight, daysTo_civil, Moment.day, Moment.in]
  omega

/-- **C131 (the comment is wrong)**: the end has the location of the start only if the start
is in UTC. -/
theorem C131_location (now d : Moment) :
    (timeframeFromDate now d).endDate.zone = d.zone ↔ d.zone = utc :=
  ⟨fun h => h.symm, fun h => h.symm⟩

/-- **C131 (today is UTC's)**: for a start made with `Date` or `NewShortDate`, whatever location
was given, the end is the date the clock shows in UTC. -/
theorem C131_utc (now : Moment) (d : YMD) (location : Zone) (t : Moment) :
    civil (timeframeFromDate now (date d location)).endDate.day = civil (now.unix / 86400)
    ∧ civil (timeframeFromDate now (newShortDate t)).endDate.day = civil (now.unix / 86400) := by
  rw [day_end, day_end]
  simp [newShortDate, date, midnight, utc]

/-- **C131 (not today's)**: take the frame from today, as the caller's clock shows it, at an
offset of less than a day.  It covers exactly today if the date is the same in UTC.  It ends
the day before it starts exactly if the caller's date is ahead of UTC, and runs into tomorrow
exactly if it is behind. -/
theorem C131_today (now : Moment) (h : -86400 < now.zone now.unix ∧ now.zone now.unix < 86400) :
    let f := timeframeFromDate now (newShortDate now)
    let clock := now.unix % 86400 + now.zone now.unix
    (f.endDate.day = f.startDate.day ↔ 0 ≤ clock ∧ clock < 86400)
    ∧ (f.endDate.day + 1 = f.startDate.day ↔ 86400 ≤ clock)
    ∧ (f.endDate.day = f.startDate.day + 1 ↔ clock < 0) := by
  have hs : (timeframeFromDate now (newShortDate now)).startDate.day = (now.unix + now.zone now.unix) / 86400 := by
    rw [timeframeFromDate, newShortDate, date, day_midnight, daysTo_civil, Moment.day]
  have he : (timeframeFromDate now (newShortDate now)).endDate.day = now.unix / 86400 := by
    rw [day_end]
    simp [newShortDate, date, midnight, utc]
  simp only [hs, he]
  omega

/-! ### Cases -/

/-- A zone one hour ahead of UTC. -/
def berlin : Zone := fun _ => 3600

/-- Half past midnight on 2 January 2026 in Berlin. -/
def night : Moment := ⟨1767310200, berlin⟩

example : civil night.day = ⟨2026, 1, 2⟩ := by decide +kernel
example : civil (newShortDate night).day = ⟨2026, 1, 2⟩ := by decide +kernel
example : civil (timeframeFromDate night (newShortDate night)).endDate.day = ⟨2026, 1, 1⟩ := by decide +kernel
example : 86400 ≤ night.unix % 86400 + night.zone night.unix := by decide +kernel
example : berlin ≠ utc := fun h => by have := congrFun h 0; simp [berlin, utc] at this
/- A start that keeps its location, as `ShortDate{t}` does: the end is the date in Berlin. -/
example : civil (timeframeFromDate night night).endDate.day = ⟨2026, 1, 2⟩ := by decide +kernel
example : next ⟨2024, 2, 28⟩ = ⟨2024, 2, 29⟩ ∧ next ⟨2100, 2, 28⟩ = ⟨2100, 3, 1⟩ := by decide +kernel
example : IsDate ⟨2000, 2, 29⟩ ∧ ¬ IsDate ⟨1900, 2, 29⟩ := by
  constructor
  · exact ⟨by decide, by decide, by decide, by decide⟩
  · rintro ⟨-, -, -, h⟩; revert h; decide

end Verif.Domain.Today

/-!
Model of `Date`, `NewShortDate` and `TimeframeFromDate` of domain/time.go with
locations: what a date is depends on where the clock is read.
-/

namespace Verif.Domain.Today

/-- `*time.Location`: the seconds east of UTC that hold there at an instant, which is
given as Unix time.  Daylight saving makes it a function. -/
abbrev Zone := Int → Int

/-- `time.UTC`. -/
def utc : Zone := fun _ => 0

/-- `time.Time`: an instant as Unix time and the location it is shown in.
Simplification: no nanoseconds, which change no date. -/
structure Moment where
  unix : Int
  zone : Zone

/-- `Time.In`. -/
def Moment.in (t : Moment) (zone : Zone) : Moment := { t with zone := zone }

/-- The days from 1970-01-01 to the date a clock at the location shows. -/
def Moment.day (t : Moment) : Int := (t.unix + t.zone t.unix) / 86400

/-- A date: year, month and day. -/
structure YMD where
  year : Int
  month : Int
  day : Int
deriving DecidableEq, Repr

/-- `Time.Year`, `Time.Month` and `Time.Day` of the day `n` days after 1970-01-01: whole
400 years, then centuries, four years and years, where the last century and the last year
may be longer.  Simplification: Go counts years from January, this from March, so that the
leap day comes last. -/
def civil (n : Int) : YMD :=
  let z := n + 719468
  let doe := z % 146097
  let c := min (doe / 36524) 3
  let q := (doe - 36524 * c) / 1461
  let y := min ((doe - 36524 * c - 1461 * q) / 365) 3
  let doy := doe - 36524 * c - 1461 * q - 365 * y
  let mp := (5 * doy + 2) / 153
  let year := 400 * (z / 146097) + 100 * c + 4 * q + y
  let d := doy - (153 * mp + 2) / 5 + 1
  if mp < 10 then ⟨year, mp + 3, d⟩ else ⟨year + 1, mp - 9, d⟩

/-- The days from 1970-01-01 to a date, as `time.Date` counts them: days beyond the end of
the month run on into the next.  Simplification: months are those from 1 to 12, `time.Date`
also accepts others. -/
def daysTo (d : YMD) : Int :=
  let y := if d.month ≤ 2 then d.year - 1 else d.year
  let mp := if d.month ≤ 2 then d.month + 9 else d.month - 3
  365 * y + y / 4 - y / 100 + y / 400 + (153 * mp + 2) / 5 + d.day - 1 - 719468

/-- `time.Date(year, month, day, 0, 0, 0, 0, time.UTC)`. -/
def midnight (d : YMD) : Moment := ⟨daysTo d * 86400, utc⟩

/-- /repo/domain/time.go:23-25 `Date`: the location is not used. -/
def date (d : YMD) (_location : Zone) : Moment := midnight d

/-- /repo/domain/time.go:18-20 `NewShortDate`. -/
def newShortDate (t : Moment) : Moment := date (civil t.day) t.zone

/-- /repo/domain/time.go:63-66 `Timeframe`. -/
structure Timeframe where
  startDate : Moment
  endDate : Moment

/-- /repo/domain/time.go:70-73 `TimeframeFromDate`; `now` is what `time.Now()` gives. -/
def timeframeFromDate (now : Moment) (d : Moment) : Timeframe :=
  let endDate := newShortDate (now.in d.zone)
  ⟨d, endDate⟩

end Verif.Domain.Today

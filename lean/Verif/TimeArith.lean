import Verif.Time

/-
The arithmetic of Go's `time` package the code relies on: `Time.Sub` and `Time.Add`.
-/

namespace Verif.Time

/-- Days from 1 January of year 1 to 1 January of year `y`. -/
def daysBeforeYear (y : Int) : Int := 365 * (y - 1) + (y - 1) / 4 - (y - 1) / 100 + (y - 1) / 400

/-- Days from 1 January to the first of the month. -/
def daysBeforeMonth (y : Int) : Nat → Nat
  | 0 => 0
  | 1 => 0
  | m + 1 => daysBeforeMonth y m + daysIn m y

/-- Nanoseconds from 1 January of year 1, midnight: the instant Go stores for a UTC time.
Simplification: no bound on the year. -/
def instant (t : Civil) : Int :=
  ((daysBeforeYear t.year + daysBeforeMonth t.year t.month + (t.day - 1)) * 86400 + t.hour * 3600 + t.min * 60 + t.sec)
    * 1000000000 + t.nsec

/-- The year of a day and its number in the year from 0: the cycles of 400, 100, 4 and one
year in `absDate` of Go's time package. -/
def yearOfDay (n : Int) : Int × Nat :=
  let c := n % 146097
  let q100 := min (c / 36524) 3
  let r := c - 36524 * q100
  let q1 := min (r % 1461 / 365) 3
  (400 * (n / 146097) + 100 * q100 + 4 * (r / 1461) + q1 + 1, (r % 1461 - 365 * q1).toNat)

/-- The month and the day, from the month `m` on, of the day `d` after the first of `m`. -/
def monthOfDay (y : Int) : Nat → Nat → Nat → Nat × Nat
  | 0, m, d => (m, d + 1)
  | fuel + 1, m, d => if d < daysIn m y then (m, d + 1) else monthOfDay y fuel (m + 1) (d - daysIn m y)

/-- The civil components of an instant, UTC. -/
def civil (i : Int) : Civil :=
  let s := i / 1000000000
  let yd := yearOfDay (s / 86400)
  let md := monthOfDay yd.1 11 1 yd.2
  let d := (s % 86400).toNat
  ⟨yd.1, md.1, md.2, d / 3600, d % 3600 / 60, d % 60, (i % 1000000000).toNat⟩

/-- `t.Sub(u)`: nanoseconds, saturating at the ends of `int64`. -/
def sub (t u : Civil) : Int := max (-2 ^ 63) (min (2 ^ 63 - 1) (instant t - instant u))

/-- `t.Add(d)`. -/
def add (t : Civil) (d : Int) : Civil := civil (instant t + d)

/-- `time.Time{}`. -/
def zeroTime : Civil := ⟨1, 1, 1, 0, 0, 0, 0⟩

end Verif.Time

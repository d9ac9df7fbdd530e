import Verif.Go
import Verif.Time

/-
Specification for statement lines: where texts are cut, and distances between days.
-/

namespace Verif.Swift.Spec

/-- `s` is `a`, then the first occurrence of `p`, then `b`. -/
def CutAt (p a b s : Bytes) : Prop := s = a ++ p ++ b ∧ ¬ p <:+: a ++ p.dropLast

/-- How the end of a statement line is divided into the customer's reference, the bank's
reference and additional information. -/
inductive Refs (s : Bytes) : Bytes → Bytes → Bytes → Prop where
  | plain : ¬ b!"//" <:+: s → ¬ b!"\r\n/" <:+: s → Refs s s [] []
  | bank {r b : Bytes} : CutAt b!"//" r b s → ¬ b!"\r\n/" <:+: s → Refs s r b []
  | info {r a : Bytes} : ¬ b!"//" <:+: s → CutAt b!"\r\n/" r a s → Refs s r [] a
  | both {r b a : Bytes} : CutAt b!"//" r (b ++ b!"\r\n/" ++ a) s → CutAt b!"\r\n/" (r ++ b!"//" ++ b) a s → Refs s r b a
  | swapped {x i y : Bytes} : CutAt b!"\r\n/" x (i ++ b!"//" ++ y) s → CutAt b!"//" (x ++ b!"\r\n/" ++ i) y s →
      Refs s (x ++ b!"\r\n/" ++ i) i y

/-- The first line break followed by a slash is followed by two, and these are the first two
slashes. -/
def Crash (s : Bytes) : Prop := ∃ x y, CutAt b!"\r\n/" x (47 :: y) s ∧ CutAt b!"//" (x ++ b!"\r\n") y s

/-- Days before 1 January of a year, counted from 1 January of year 1. -/
def yearStart (y : Int) : Int := 365 * (y - 1) + (y - 1) / 4 - (y - 1) / 100 + (y - 1) / 400

/-- Days of a common year before the month. -/
def monthStart (m : Nat) : Int := [0, 0, 31, 59, 90, 120, 151, 181, 212, 243, 273, 304, 334].getD m 0

/-- The number of a day in the Gregorian calendar. -/
def dayNumber (y : Int) (m d : Nat) : Int :=
  yearStart y + monthStart m + (if 2 < m ∧ y % 4 = 0 ∧ (y % 100 ≠ 0 ∨ y % 400 = 0) then 1 else 0) + d

/-- The number of days between two days. -/
def apart (a b : Int) : Nat := (a - b).natAbs

end Verif.Swift.Spec

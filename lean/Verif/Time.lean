import Verif.GoLib

/-
The part of Go's `time` package the code relies on: civil date and time
components, `Format` and `Parse` for the fixed numeric layouts.
-/

namespace Verif.Time

open GoLib

/-- Civil components of a `time.Time` in its location.  Simplification: the
location itself is not represented; values parsed without zone are UTC. -/
structure Civil where
  year : Int
  month : Nat
  day : Nat
  hour : Nat
  min : Nat
  sec : Nat
  nsec : Nat
  deriving DecidableEq, Repr

/-- `isLeap` of Go's time package. -/
def isLeap (y : Int) : Bool := y % 4 == 0 && (y % 100 != 0 || y % 400 == 0)

/-- `daysIn(month, year)` of Go's time package. -/
def daysIn (m : Nat) (y : Int) : Nat :=
  if m = 2 then (if isLeap y then 29 else 28)
  else if m = 4 ∨ m = 6 ∨ m = 9 ∨ m = 11 then 30 else 31

/-- `appendInt(b, n, width)` of Go's time package for `n ≥ 0`: zero padded. -/
def pad (w n : Nat) : Bytes := List.replicate (w - (natDec n).length) 48 ++ natDec n

/-- `appendInt(b, y, 4)` for a year: the sign is not counted. -/
def formatYear (y : Int) : Bytes := if y < 0 then 45 :: pad 4 y.natAbs else pad 4 y.natAbs

/-- `t.Format("20060102")`. -/
def format8 (t : Civil) : Bytes := formatYear t.year ++ pad 2 t.month ++ pad 2 t.day

/-- `t.Format("150405")`. -/
def format6 (t : Civil) : Bytes := pad 2 t.hour ++ pad 2 t.min ++ pad 2 t.sec

/-- `getnum(s, true)` of Go's time package: exactly two digits. -/
def getnumFixed : Bytes → Option (Nat × Bytes)
  | a :: b :: r => if isDigit a && isDigit b then some ((a.toNat - 48) * 10 + (b.toNat - 48), r) else none
  | _ => none

/-- `getnum(s, false)`: one digit is enough if no digit follows. -/
def getnum : Bytes → Option (Nat × Bytes)
  | [] => none
  | [a] => if isDigit a then some (a.toNat - 48, []) else none
  | a :: b :: r =>
    if isDigit a then
      if isDigit b then some ((a.toNat - 48) * 10 + (b.toNat - 48), r) else some (a.toNat - 48, b :: r)
    else none

/-- The month, the day and the check that nothing follows and that the day exists:
the tail of `time.Parse` for a layout ending in `0102`. -/
def parseMonthDay (y : Int) (v : Bytes) : Option Civil := do
  let (m, v) ← getnumFixed v
  if m = 0 ∨ 12 < m then none
  else do
    let (d, v) ← getnumFixed v
    if v ≠ [] then none
    else if d < 1 ∨ daysIn m y < d then none
    else some ⟨y, m, d, 0, 0, 0, 0⟩

/-- `time.Parse("20060102", v)`. -/
def parse8 (v : Bytes) : Option Civil :=
  if v.length < 4 ∨ (v.head?.any fun c => !isDigit c) then none
  else do
    let y ← atoi (v.take 4)
    parseMonthDay y (v.drop 4)

/-- The optional fractional second that `time.Parse` accepts after a seconds
field even though the layout has none (Go 1.17 and later: comma or period).
Returns nanoseconds and the rest. -/
def parseFraction : Bytes → Nat × Bytes
  | c :: d :: r =>
    if (c == 44 || c == 46) && isDigit d then
      let ds := (d :: r).takeWhile isDigit
      (digitsVal (ds.take 9) * 10 ^ (9 - (ds.take 9).length), (d :: r).dropWhile isDigit)
    else (0, c :: d :: r)
  | v => (0, v)

/-- `time.Parse("150405", v)`; the date components default to 1 January of year 0. -/
def parse6 (v : Bytes) : Option Civil := do
  let (h, v) ← getnum v
  if 24 ≤ h then none
  else do
    let (m, v) ← getnumFixed v
    if 60 ≤ m then none
    else do
      let (s, v) ← getnumFixed v
      if 60 ≤ s then none
      else
        let (ns, v) := parseFraction v
        if v ≠ [] then none else some ⟨0, 1, 1, h, m, s, ns⟩

/-- `t.IsZero()` for a UTC time: 1 January of year 1, midnight. -/
def isZero (t : Civil) : Bool := t == ⟨1, 1, 1, 0, 0, 0, 0⟩

end Verif.Time

import Verif.Time
import Verif.GoLib

/-
Model of the domain package: acknowledgements, bank parameter data, dates and
timeframes.
-/

namespace Verif.Domain

open GoLib Time

/-! ## Acknowledgements (domain/acknowledgement.go) -/

/-- The two values of the field `Type` the constructors set.
/repo/domain/acknowledgement.go:32-37. -/
inductive AckType where
  | message
  | segment
  deriving DecidableEq, Repr

/-- /repo/domain/message.go `MessageReference`: dialog and message number. -/
structure MessageReference where
  dialogID : Str
  messageNumber : Int
  deriving DecidableEq, Repr

/-- /repo/domain/acknowledgement.go:40-48 `Acknowledgement`. -/
structure Acknowledgement where
  type : AckType
  code : Int
  referenceDataElement : Str
  text : Str
  params : List Str
  referencingMessage : MessageReference := ⟨[], 0⟩
  referencingSegmentNumber : Int := 0
  deriving DecidableEq, Repr

namespace Acknowledgement

/-- /repo/domain/acknowledgement.go:82-84 `IsError`. -/
def isError (a : Acknowledgement) : Bool := decide (a.code ≥ 9000)

/-- /repo/domain/acknowledgement.go:87-89 `IsWarning`. -/
def isWarning (a : Acknowledgement) : Bool := decide (a.code ≥ 3000) && decide (a.code < 4000)

/-- /repo/domain/acknowledgement.go:92-94 `IsSuccess`. -/
def isSuccess (a : Acknowledgement) : Bool := decide (a.code > 0) && decide (a.code < 1000)

end Acknowledgement

/-! ## Bank parameter data (domain/bank_parameter_data.go) -/

/-- /repo/domain/bank_parameter_data.go:18-21 `PinTanBusinessTransaction`. -/
structure PinTanBusinessTransaction where
  segmentID : Str
  needsTan : Bool
  deriving DecidableEq, Repr

/-- /repo/domain/bank_parameter_data.go:25-37 `NeedsTan`: the loop with `break`. -/
def needsTan : List PinTanBusinessTransaction → Str → Bool × Bool
  | [], _ => (false, false)
  | tr :: p, id => if tr.segmentID = id then (tr.needsTan, true) else needsTan p id

/-! ## Dates (domain/time.go) -/

/-- `t.Format("2006-01-02")`. -/
def format10 (t : Civil) : Bytes :=
  formatYear t.year ++ 45 :: (pad 2 t.month ++ 45 :: pad 2 t.day)

/-- A literal `-` of the layout. -/
def skipDash : Bytes → Option Bytes
  | 45 :: r => some r
  | _ => none

/-- The part of `time.Parse("2006-01-02", v)` behind the year: month and day each
behind a `-`, nothing after the day, and the day exists. -/
def parseDashed (y : Int) (v : Bytes) : Option Civil := do
  let v ← skipDash v
  let (m, v) ← getnumFixed v
  if m = 0 ∨ 12 < m then none
  else do
    let v ← skipDash v
    let (d, v) ← getnumFixed v
    if v ≠ [] then none
    else if d < 1 ∨ daysIn m y < d then none
    else some ⟨y, m, d, 0, 0, 0, 0⟩

/-- `time.Parse("2006-01-02", v)`. -/
def parse10 (v : Bytes) : Option Civil :=
  if v.length < 4 ∨ (v.head?.any fun c => !isDigit c) then none
  else do
    let y ← atoi (v.take 4)
    parseDashed y (v.drop 4)

/-- /repo/domain/time.go:18-25 `NewShortDate` and `Date`: the time of day becomes
zero.  Simplification: `Civil` has no location, so the switch to UTC is not seen,
and `time.Date` leaves existing dates alone. -/
def newShortDate (t : Civil) : Civil := ⟨t.year, t.month, t.day, 0, 0, 0, 0⟩

/-- `Time{}`: the value of the variable after a failed parse. -/
def zeroTime : Civil := ⟨1, 1, 1, 0, 0, 0, 0⟩

/-- `json.Marshal(s)` of a Go string without characters that JSON escapes: digits,
`-` and `,` are all the code passes. -/
def jsonQuote (s : Bytes) : Bytes := 34 :: (s ++ [34])

/-- `strconv.Unquote(data)`.  Text in double quotes without backslash, newline or
quote inside is itself.  Everything else (escapes, other quotes, errors) is left
to the parameter `rest`, so theorems hold for every behaviour there; `none` is an
error, on which Go returns the empty string. -/
def unquote (rest : Bytes → Option Bytes) (data : Bytes) : Option Bytes :=
  match data with
  | 34 :: r =>
    if r.getLast? = some 34 ∧ (r.dropLast.all fun b => b != 34 && b != 92 && b != 10) then some r.dropLast
    else rest data
  | _ => rest data

/-- /repo/domain/time.go:28-33 `ShortDate.MarshalJSON`. -/
def marshalDateJSON (t : Civil) : Bytes :=
  if isZero t then jsonQuote [] else jsonQuote (format10 t)

/-- /repo/domain/time.go:36-41 `ShortDate.UnmarshalJSON`: the receiver after the
call and whether an error was returned.  An error of `Unquote` is ignored. -/
def unmarshalDateJSON (rest : Bytes → Option Bytes) (data : Bytes) : Civil × Bool :=
  match parse10 ((unquote rest data).getD []) with
  | some t => (t, false)
  | none => (zeroTime, true)

/-- /repo/domain/time.go:53-60 `ShortDate.UnmarshalText`: the receiver keeps its
value on an error. -/
def unmarshalDateText (old : Civil) (text : Bytes) : Civil × Bool :=
  match parse10 text with
  | some t => (t, false)
  | none => (old, true)

/-- /repo/domain/time.go:63-66 `Timeframe`. -/
structure Timeframe where
  startDate : Civil
  endDate : Civil
  deriving DecidableEq, Repr

/-- `Timeframe{}`. -/
def Timeframe.zero : Timeframe := ⟨zeroTime, zeroTime⟩

/-- `url.Values`: a map from keys to lists of values. -/
abbrev Values := Bytes → List Bytes

/-- `Values.Get`: the first value or the empty string. -/
def Values.get (v : Values) (key : Bytes) : Bytes := (v key).headD []

/-- `Values.Set`. -/
def Values.set (v : Values) (key value : Bytes) : Values := fun k => if k = key then [value] else v k

/-- /repo/domain/time.go:77-91 `TimeframeFromQuery`. -/
def fromQuery (params : Values) : Outcome Timeframe :=
  let from_ := params.get b!"from"
  let to_ := params.get b!"to"
  if from_ = [] ∨ to_ = [] then .err
  else
    match parse8 from_, parse8 to_ with
    | some a, some b => .ok ⟨a, b⟩
    | _, _ => .err

/-- /repo/domain/time.go:95-100 `ToQuery`. -/
def toQuery (tf : Timeframe) : Values :=
  let params : Values := fun _ => []
  let params := params.set b!"from" (format8 tf.startDate)
  params.set b!"to" (format8 tf.endDate)

/-- /repo/domain/time.go:103-108 `Timeframe.MarshalJSON`. -/
def marshalTimeframeJSON (tf : Timeframe) : Bytes :=
  if isZero tf.startDate || isZero tf.endDate then jsonQuote []
  else jsonQuote (format10 tf.startDate ++ 44 :: format10 tf.endDate)

/-- /repo/domain/time.go:111-128 `Timeframe.UnmarshalJSON`: the receiver after the
call; the error is always nil. -/
def unmarshalTimeframeJSON (rest : Bytes → Option Bytes) (data : Bytes) : Timeframe :=
  match split 44 ((unquote rest data).getD []) with
  | [s, e] =>
    match parse10 s, parse10 e with
    | some a, some b => ⟨a, b⟩
    | _, _ => .zero
  | _ => .zero

/-- /repo/domain/time.go:132-134 `Timeframe.IsZero`. -/
def Timeframe.isZero (tf : Timeframe) : Bool := Time.isZero tf.startDate && Time.isZero tf.endDate

end Verif.Domain

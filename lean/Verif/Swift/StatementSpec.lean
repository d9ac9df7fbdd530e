import Verif.Swift.Spec
import Verif.Element.Spec
import Verif.Token.Spec

/-
A writer for account statements in the format MT940, as far as banks use it: what a statement
says, and the bytes it is sent as.  Nothing here refers to the parser.
-/

namespace Verif.Swift.Spec

open Token.Spec (Digit DigitString value)
open Element.Spec (ExistingDate)

/-- Two decimal digits. -/
def two (n : Nat) : Bytes := [UInt8.ofNat (48 + n / 10), UInt8.ofNat (48 + n % 10)]

/-- A day of some century. -/
structure Day where
  year : Nat
  month : Nat
  day : Nat
  deriving DecidableEq, Repr

/-- `YYMMDD`. -/
def Day.text (d : Day) : Bytes := two d.year ++ two d.month ++ two d.day

/-- The century begins with the year `c`, and the day exists. -/
def Day.In (c : Int) (d : Day) : Prop := d.year < 100 ∧ ExistingDate (c + d.year) d.month d.day

/-- A balance: `C` or `D`, the day, the currency, and the amount before and after the comma. -/
structure Balance where
  mark : Byte
  day : Day
  currency : Bytes
  whole : Bytes
  frac : Bytes

def Balance.text (b : Balance) : Bytes := [b.mark] ++ b.day.text ++ b.currency ++ b.whole ++ b!"," ++ b.frac

structure Balance.Ok (c : Int) (b : Balance) : Prop where
  mark : b.mark = 67 ∨ b.mark = 68
  day : b.day.In c
  currency : b.currency.length = 3 ∧ ∀ x ∈ b.currency, Upper x
  whole : DigitString b.whole
  frac : ∀ x ∈ b.frac, Digit x

/-- A text that begins no line with a colon or a dash, except possibly the first one. -/
def Continues (v : Bytes) : Prop := ∀ a x b, v = a ++ 13 :: 10 :: x :: b → x ≠ 58 ∧ x ≠ 45

/-- The description of an entry: a code of three digits, and sub-fields, broken into lines in
some way. -/
structure Description where
  code : Bytes
  fields : List (Bytes × Bytes)
  lines : List Bytes

def Description.text (d : Description) : Bytes := d.code ++ b!"\r\n".intercalate d.lines

/-- The keys of sub-fields, in ascending order. -/
def fieldKeys : List Bytes :=
  [b!"?00", b!"?10", b!"?20", b!"?21", b!"?22", b!"?23", b!"?24", b!"?25", b!"?26", b!"?27", b!"?28", b!"?29",
   b!"?30", b!"?31", b!"?32", b!"?33", b!"?34", b!"?60", b!"?61", b!"?62", b!"?63"]

structure Description.Ok (d : Description) : Prop where
  code : d.code.length = 3 ∧ ∀ x ∈ d.code, Digit x
  keys : (d.fields.map (·.1)).Sublist fieldKeys
  texts : ∀ f ∈ d.fields, 63 ∉ f.2 ∧ 0 ∉ f.2
  /-- The text key is a number. -/
  key34 : ∀ t, d.fields.lookup b!"?34" = some t → DigitString t ∧ value t < 2 ^ 63
  lines : d.lines.flatten = (d.fields.map fun f => f.1 ++ f.2).flatten
  noCR : ∀ l ∈ d.lines, 13 ∉ l
  continues : Continues d.text
  /-- If there are several lines, then the first of them has a question mark. -/
  first : ∀ l ls, d.lines = l :: ls → ls ≠ [] → 63 ∈ l

/-- An entry of a statement: value date, month and day of the booking date if it is given, mark
(`C`, `D`, `RC` or `RD`), third letter of the currency if it is given, amount, booking key, the
rest of the line, and a description if there is one. -/
structure Entry where
  valuta : Day
  booking : Option (Nat × Nat)
  mark : Bytes
  kind : Bytes
  whole : Bytes
  frac : Bytes
  key : Bytes
  rest : Bytes
  description : Option Description

def Entry.text (e : Entry) : Bytes :=
  e.valuta.text ++ (match e.booking with | none => [] | some (m, d) => two m ++ two d) ++ e.mark ++ e.kind ++ e.whole ++ b!"," ++
    e.frac ++ b!"N" ++ e.key ++ e.rest

structure Entry.Ok (c : Int) (e : Entry) : Prop where
  valuta : e.valuta.In c
  booking : ∀ m d, e.booking = some (m, d) → ExistingDate (c + e.valuta.year) m d
  mark : e.mark ∈ [b!"C", b!"D", b!"RC", b!"RD"]
  kind : e.kind.length ≤ 1 ∧ ∀ x ∈ e.kind, Upper x
  whole : DigitString e.whole
  frac : ∀ x ∈ e.frac, Digit x
  key : e.key.length = 3 ∧ ∀ x ∈ e.key, Upper x ∨ Digit x
  noNul : 0 ∉ e.rest
  continues : Continues e.rest
  description : ∀ d, e.description = some d → d.Ok

/-- A statement: reference, related reference, bank and account, number and sheet, balances
before and after it, entries, available balances (`:64:` and `:65:`), and a remark. -/
structure Statement where
  reference : Bytes
  related : Option Bytes
  bank : Bytes
  account : Bytes
  number : Bytes
  sheet : Option Bytes
  /-- Whether the balance is that of a sheet only (`M`), or final (`F`). -/
  openingM : Bool
  opening : Balance
  entries : List Entry
  closingM : Bool
  closing : Balance
  current : Option Balance
  future : Option Balance
  remark : Option Description

def finality (m : Bool) : Bytes := if m then b!"M" else b!"F"

/-- The tags of an entry. -/
def Entry.tags (e : Entry) : List Tag := ⟨b!":61:", e.text⟩ :: (e.description.map fun d => ⟨b!":86:", d.text⟩).toList

/-- The tags of a statement. -/
def Statement.tags (s : Statement) : List Tag :=
  [⟨b!":20:", s.reference⟩] ++ (s.related.map fun r => ⟨b!":21:", r⟩).toList ++
  [⟨b!":25:", s.bank ++ b!"/" ++ s.account⟩, ⟨b!":28C:", s.number ++ (s.sheet.map fun n => b!"/" ++ n).getD []⟩,
    ⟨b!":60" ++ finality s.openingM ++ b!":", s.opening.text⟩] ++
  s.entries.flatMap Entry.tags ++ [⟨b!":62" ++ finality s.closingM ++ b!":", s.closing.text⟩] ++
  (s.current.map fun b => ⟨b!":64:", b.text⟩).toList ++ (s.future.map fun b => ⟨b!":65:", b.text⟩).toList ++
  (s.remark.map fun d => ⟨b!":86:", d.text⟩).toList

/-- The statement as it is sent. -/
def Statement.text (s : Statement) : Bytes := wire s.tags

/-- A text on one line, without NUL. -/
def OneLine (v : Bytes) : Prop := 0 ∉ v ∧ 13 ∉ v

structure Statement.Ok (c : Int) (s : Statement) : Prop where
  reference : OneLine s.reference
  related : ∀ r, s.related = some r → OneLine r
  bank : OneLine s.bank ∧ 47 ∉ s.bank
  account : OneLine s.account ∧ 47 ∉ s.account
  number : DigitString s.number ∧ value s.number < 2 ^ 63
  sheet : ∀ n, s.sheet = some n → DigitString n ∧ value n < 2 ^ 63
  opening : s.opening.Ok c
  entries : ∀ e ∈ s.entries, e.Ok c
  closing : s.closing.Ok c
  current : ∀ b, s.current = some b → b.Ok c
  future : ∀ b, s.future = some b → b.Ok c
  remark : ∀ d, s.remark = some d → d.Ok

end Verif.Swift.Spec

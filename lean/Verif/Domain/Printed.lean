import Verif.Go

/-
Model of the printable lists of domain/account_balance.go, domain/account_transaction.go and
domain/account_information.go, with text/tabwriter as far as they use it.
-/

namespace Verif.Domain.Printed

/-! ## text/tabwriter -/

/-- The arguments of `tabwriter.NewWriter`; the padding is 0 wherever the library calls it.
`padTab`: the padding character is a tab and not a blank. -/
structure Layout where
  minWidth : Nat
  tabWidth : Nat
  padTab : Bool
  tabIndent : Bool
  debug : Bool

/-- A text cut at every `sep`. -/
def pieces (sep : Char) : Str → List Str
  | [] => [[]]
  | c :: r =>
    if c = sep then [] :: pieces sep r
    else match pieces sep r with
      | [] => [[c]]
      | p :: ps => (c :: p) :: ps

/-- The cells of a text: lines end with a line feed, cells with a tab.  What follows the last tab
of a line is no cell of a column.  Simplification: the characters vertical tab, form feed and
those with a meaning for other flags are not treated. -/
def cellsOf (s : Str) : List (List Str) := (pieces '\n' s).map (pieces '\t')

/-- The line has a cell in this column. -/
def has (j : Nat) (l : List Str) : Bool := j + 1 < l.length

/-- The width of a column in a block of lines. -/
def colWidth (p : Layout) (j : Nat) (block : List (List Str)) : Nat :=
  block.foldl (fun w l => max w (l.getD j []).length) p.minWidth

/-- `Writer.format`: a column ends with the first line that has no cell in it, above and below. -/
def width (p : Layout) (j : Nat) (before : List (List Str)) (l : List Str) (after : List (List Str)) : Nat :=
  colWidth p j ((before.takeWhile (has j)).reverse ++ l :: after.takeWhile (has j))

/-- `Writer.writePadding`. -/
def pad (p : Layout) (useTabs : Bool) (textw cellw : Nat) : Str :=
  if p.padTab || useTabs then
    if p.tabWidth = 0 then []
    else
      let n := (cellw + p.tabWidth - 1) / p.tabWidth * p.tabWidth - textw
      List.replicate ((n + p.tabWidth - 1) / p.tabWidth) '\t'
  else List.replicate (cellw - textw) ' '

/-- The bar between columns with the flag `Debug`. -/
def bar (p : Layout) (j : Nat) : Str := if j > 0 && p.debug then c!"|" else []

/-- `Writer.writeLines`, one line: the cells from column `j` on.  `useTabs`: only empty cells so
far. -/
def line (p : Layout) (w : Nat → Nat) (useTabs : Bool) (j : Nat) : List Str → Str
  | [] => []
  | [c] => bar p j ++ c
  | c :: d :: r =>
    if c = [] then bar p j ++ pad p useTabs 0 (w j) ++ line p w useTabs (j + 1) (d :: r)
    else bar p j ++ c ++ pad p false c.length (w j) ++ line p w false (j + 1) (d :: r)

/-- All lines; `before` are the lines above, the nearest first. -/
def render (p : Layout) (before : List (List Str)) : List (List Str) → Str
  | [] => []
  | [l] => line p (fun j => width p j before l []) p.tabIndent 0 l
  | l :: m :: rest =>
    line p (fun j => width p j before l (m :: rest)) p.tabIndent 0 l ++ '\n' :: render p (l :: before) (m :: rest)

/-- What a `tabwriter.Writer` has written after `Flush`. -/
def tabwriter (p : Layout) (s : Str) : Str := render p [] (cellsOf s)

/-! ## The lists -/

/-- How numbers and dates are printed: `%.2f`, the test against `0.0`, and
`Format("2006-01-02")`. -/
structure Forms (F T : Type) where
  number : F → Str
  isZero : F → Bool
  day : T → Str

variable {F T : Type}

/-- `%.2f %s`. -/
def Forms.amount (f : Forms F T) (a : F × Str) : Str := f.number a.1 ++ c!" " ++ a.2

/-- The fields of /repo/domain/account_balance.go:55-66 `AccountBalance` and :133-145
`SepaAccountBalance` that are printed; `bank` and `account` are `BankID` and `AccountID`, or `BIC`
and `IBAN`. -/
structure Balance (F T : Type) where
  product : Str
  bank : Str
  account : Str
  day : T
  booked : F × Str
  earmarked : Option (F × Str)
  limit : Option (F × Str)

/-- /repo/domain/account_balance.go:31 and :109: the condition for the remark. -/
def Balance.marked (f : Forms F T) (a : Balance F T) : Option (F × Str) :=
  match a.earmarked with
  | some e => if f.isZero e.1 then none else some e
  | none => none

/-- The cell with the amounts, /repo/domain/account_balance.go:30-34 and :108-112. -/
def Balance.amounts (f : Forms F T) (a : Balance F T) : Str :=
  f.amount a.booked ++ match a.marked f with
    | some e => c!" (" ++ f.amount e ++ c!")*"
    | none => []

/-- The cell with the limit, /repo/domain/account_balance.go:36-40 and :114-118. -/
def Balance.limitText (f : Forms F T) (a : Balance F T) : Str :=
  match a.limit with
  | some l => f.amount l
  | none => c!" - "

/-- One round of the loops /repo/domain/account_balance.go:20-43 and :98-121. -/
def Balance.row (f : Forms F T) (a : Balance F T) : Str :=
  a.product ++ c!"\t" ++ a.bank ++ c!"\t" ++ a.account ++ c!"\t" ++ c!"\t" ++ f.day a.day ++ c!"\t" ++
    a.amounts f ++ c!"\t" ++ a.limitText f ++ c!"\t" ++ c!"\n"

/-- The layout of the lists, /repo/domain/account_balance.go:45 and :123,
/repo/domain/account_information.go:38. -/
def wide : Layout := ⟨20, 1, false, true, false⟩

/-- The layout of /repo/domain/account_balance.go:82, :161 and /repo/domain/account_transaction.go:58. -/
def wider : Layout := ⟨24, 1, false, true, false⟩

/-- /repo/domain/account_balance.go:14-52 `AccountBalances.String` and :92-130
`SepaAccountBalances.String`; `titles` is the heading. -/
def balancesText (f : Forms F T) (titles : Str) (ab : List (Balance F T)) : Str :=
  tabwriter wide (c!"\n" ++ titles ++ c!"\n" ++ ab.flatMap (Balance.row f)) ++
    if ab.any (fun a => (a.marked f).isSome) then c!"* earmarked transactions\n" else []

/-- /repo/domain/account_balance.go:14-52 `AccountBalances.String`. -/
def balances (f : Forms F T) (ab : List (Balance F T)) : Str :=
  balancesText f c!"Product Name\tBankID\tAccountID\t\tBookingDate\tAmount\tLimit" ab

/-- /repo/domain/account_balance.go:92-130 `SepaAccountBalances.String`. -/
def sepaBalances (f : Forms F T) (ab : List (Balance F T)) : Str :=
  balancesText f c!"Product Name\tBIC\tIBAN\t\tBookingDate\tAmount\tLimit" ab

/-- /repo/domain/account_balance.go:68-86 `AccountBalance.String` and :147-165
`SepaAccountBalance.String`; `titles` is the heading. -/
def balanceText (f : Forms F T) (titles : Str) (a : Balance F T) : Str :=
  tabwriter wider (c!"\n" ++ titles ++ c!"\n" ++ a.bank ++ c!"\t" ++ a.account ++ c!"\t" ++ c!"\t" ++ f.day a.day ++ c!"\t" ++
    f.amount a.booked)

/-- /repo/domain/account_balance.go:68-86 `AccountBalance.String`. -/
def balance (f : Forms F T) (a : Balance F T) : Str := balanceText f c!"BankID\tAccountID\t\tBookingDate\tAmount" a

/-- /repo/domain/account_balance.go:147-165 `SepaAccountBalance.String`. -/
def sepaBalance (f : Forms F T) (a : Balance F T) : Str := balanceText f c!"BIC\tIBAN\t\tBookingDate\tAmount" a

/-- The fields of /repo/domain/account_transaction.go:65-79 `AccountTransaction` that are printed. -/
structure Transaction (F T : Type) where
  ownBank : Str
  ownAccount : Str
  amount : F × Str
  day : T
  text : Str
  bank : Str
  account : Str
  name : Str
  purpose : Str
  before : T × (F × Str)
  after : T × (F × Str)

/-- One round of the loop /repo/domain/account_transaction.go:32-47. -/
def Transaction.row (f : Forms F T) (a : Transaction F T) : Str :=
  f.day a.day ++ c!"\t" ++ a.text ++ c!"\t" ++ f.amount a.amount ++ c!"\t" ++ a.bank ++ c!"\t" ++ a.account ++ c!"\t" ++
    a.name ++ c!"\t" ++ a.purpose ++ c!"\n"

/-- The line about a balance, /repo/domain/account_transaction.go:23-28 and :50-55. -/
def balanceLine (f : Forms F T) (b : T × (F × Str)) : Str :=
  c!"Balance at " ++ f.day b.1 ++ c!": " ++ f.amount b.2 ++ c!"\n"

/-- /repo/domain/account_transaction.go:14-62 `AccountTransactions.String`. -/
def transactions (f : Forms F T) (at_ : List (Transaction F T)) : Str :=
  tabwriter wider (c!"\n" ++
    (match at_.head? with
      | some a => c!"Transactions for account " ++ a.ownBank ++ c!"/" ++ a.ownAccount ++ c!"\n" ++ balanceLine f a.before
      | none => []) ++
    c!"BookingDate\tBooking Text\tAmount\tBankID\tAccountID\tName\tPurpose" ++ c!"\n" ++ at_.flatMap (Transaction.row f) ++
    (match at_.getLast? with
      | some a => balanceLine f a.after
      | none => []))

/-- /repo/domain/account_transaction.go:81-100 `AccountTransaction.String`. -/
def transaction (f : Forms F T) (a : Transaction F T) : Str :=
  tabwriter ⟨0, 8, true, false, false⟩ (c!"\n" ++ c!"BookingDate\tAmount\tBankID\tAccountID\tPurpose" ++ c!"\n" ++
    f.day a.day ++ c!"\t" ++ f.amount a.amount ++ c!"\t" ++ a.bank ++ c!"\t" ++ a.account ++ c!"\t" ++ a.purpose)

/-- The fields of /repo/domain/account_information.go:45-54 `AccountInformation` that are printed. -/
structure Information (F : Type) where
  bank : Str
  account : Str
  user : Str
  currency : Str
  name1 : Str
  name2 : Str
  product : Str
  limit : Option (Str × (F × Str))

/-- The end of a row, /repo/domain/account_information.go:29-34 and :72-77. -/
def Information.limitText (f : Forms F T) (a : Information F) : Str :=
  match a.limit with
  | some l => l.1 ++ c!": " ++ f.amount l.2
  | none => c!" - "

/-- One round of the loop /repo/domain/account_information.go:17-36, and :61-78. -/
def Information.row (f : Forms F T) (a : Information F) : Str :=
  a.bank ++ c!"\t" ++ a.account ++ c!"\t" ++ a.user ++ c!"\t" ++ a.currency ++ c!"\t" ++ a.name1 ++ c!", " ++ a.name2 ++ c!"\t" ++
    a.product ++ c!"\t" ++ a.limitText f ++ c!"\n"

/-- The heading of /repo/domain/account_information.go:15-16 and :59-60. -/
def informationTitles : Str := c!"BankID\tAccountID\tUserID\tCurrency\tName\tProductID\tLimit"

/-- /repo/domain/account_information.go:12-42 `AccountInfos.String`. -/
def informations (f : Forms F T) (ai : List (Information F)) : Str :=
  tabwriter wide (c!"\n" ++ informationTitles ++ c!"\n" ++ ai.flatMap (Information.row f))

/-- /repo/domain/account_information.go:56-84 `AccountInformation.String`: with bars between the
columns. -/
def information (f : Forms F T) (a : Information F) : Str :=
  tabwriter ⟨20, 1, false, false, true⟩ (c!"\n" ++ informationTitles ++ c!"\n" ++ a.row f)

end Verif.Domain.Printed

import Verif.Bank.Views
import Verif.Client.Model
import Verif.Iban.Model
import Verif.Domain.Printed
import Verif.Message.Reference
import Verif.TimeArith

/-
Model of the command line cmd/banking: what a run prints and what it sends.

Cobra and viper are not modelled: a run begins with the values of the flags, wherever they come
from (command line, environment or configuration file), and with a PIN.
-/

namespace Verif.Cli

open Element Segment Message Dialog Domain Transport Client Bank

/-- The flags: /repo/cmd/banking/root.go:50-53 and :83-84, /repo/cmd/banking/balances.go:27,
/repo/cmd/banking/transactions.go:27-29.  Simplification: one field for the two flags
`accountID`, of which a run has at most one; `debug` is left out. -/
structure Flags where
  url : Str
  userID : Str
  blz : Str
  pin : Str
  accountID : Str
  disableSepa : Bool
  daysToFetch : Int

/-- The commands of /repo/cmd/banking/accounts.go:26-28, /repo/cmd/banking/balances.go:30-31 and
/repo/cmd/banking/transactions.go:32-33. -/
inductive Command where
  | accounts
  | balances
  | transactions
  deriving DecidableEq, Repr

/-- How a run ends. -/
inductive End where
  /-- with this text -/
  | printed (text : Str)
  /-- with this text, and exit code 1 -/
  | refused (text : Str)
  /-- with the text of an error, and exit code 1 -/
  | failed
  /-- with a panic -/
  | crashed
  deriving DecidableEq, Repr

/-- /repo/cmd/banking/root.go:82-90: the names of the missing flags. -/
def missing (f : Flags) : List Str :=
  (if f.userID = [] then [c!"\"userID\""] else []) ++ (if f.blz = [] then [c!"\"blz\""] else [])

/-- `strings.Join(names, ", ")`. -/
def joinNames : List Str → Str
  | [] => []
  | [n] => n
  | n :: m :: r => n ++ c!", " ++ joinNames (m :: r)

/-- /repo/cmd/banking/root.go:95-101: the configuration; the other fields have their zero values. -/
def config (f : Flags) : Config := ⟨f.blz, f.userID, f.pin, f.url, 0, [], []⟩

/-- /repo/cmd/banking/balances.go:40-42 and /repo/cmd/banking/transactions.go:43-45. -/
def account (f : Flags) : Str := if f.accountID = [] then f.userID else f.accountID

/-- The bytes of a Go string as a text.  Simplification: bytes that are not ASCII characters become
those of ISO 8859-1; the code prints them as they are. -/
def raw (b : Bytes) : Str := b.map fun x => Char.ofNat x.toNat

/-- /repo/cmd/banking/balances.go:43-53 and /repo/cmd/banking/transactions.go:50-59: the account
connection. -/
def connection (f : Flags) (bic : Str) : Outcome InternationalConnection :=
  (Iban.newGerman (utf8 f.blz) (utf8 (account f))).map' fun i => ⟨raw i, bic, account f, [], 280, f.blz⟩

/-- /repo/domain/account_connection.go:22-29 `ToAccountConnection`. -/
def national (a : InternationalConnection) : AccountConnection := ⟨a.accountID, a.sub, a.country, a.bankID⟩

/-- `t.AddDate(0, 0, -n)`. -/
def daysBefore (n : Int) (t : Time.Civil) : Time.Civil := Time.add t (-(n * 86400000000000))

/-- /repo/cmd/banking/transactions.go:46-48. -/
def timeframe (f : Flags) (now : Time.Civil) : Domain.Timeframe :=
  ⟨newShortDate (daysBefore f.daysToFetch now), Domain.zeroTime⟩

/-! ## What is printed of the values of the client -/

/-- The printed fields of an amount. -/
def moneyOf (a : Amount) : Dec × Str := (a.amount, a.currency)

/-- The fields that /repo/domain/account_balance.go:14-52 prints. -/
def balanceRow (b : AccountBalance AccountConnection) : Printed.Balance Dec Time.Civil :=
  ⟨b.product, b.account.bankID, b.account.accountID, b.booked.date, moneyOf b.booked.amount, b.earmarked.map fun e => moneyOf e.amount,
    b.creditLimit.map moneyOf⟩

/-- The fields that /repo/domain/account_balance.go:92-130 prints. -/
def sepaRow (b : AccountBalance InternationalConnection) : Printed.Balance Dec Time.Civil :=
  ⟨b.product, b.account.bic, b.account.iban, b.booked.date, moneyOf b.booked.amount, b.earmarked.map fun e => moneyOf e.amount,
    b.creditLimit.map moneyOf⟩

/-- The fields that /repo/domain/account_information.go:12-42 prints; no segment sets the limit
(/repo/segment/basic_account_information.go:43-65 and the other versions). -/
def informationRow (a : AccountInformation) : Printed.Information Dec :=
  ⟨a.connection.bankID, a.connection.accountID, a.userId, a.currency, a.name1, a.name2, a.productId, none⟩

/-- The fields that /repo/domain/account_transaction.go:14-62 prints. -/
def transactionRow {F : Type} (t : Swift.Transaction F) : Printed.Transaction F Time.Civil :=
  ⟨raw t.bankCode, raw t.accountNumber, (t.amount, raw t.currency), t.bookingDate, t.bookingText, t.otherBank, t.otherAccount, t.name,
    t.purpose, (t.beforeDate, (t.before, raw t.currency)), (t.afterDate, (t.after, raw t.afterCurrency))⟩

/-! ## A run -/

/-- The end of every command: print what came back, or the error. -/
def shown {ρ : Type} (text : ρ → Str) : Outcome ρ → End
  | .ok x => .printed (text x)
  | .err => .failed
  | .panic => .crashed

/-- What a run depends on: the world of the client, the parser of statements, the bank table, and
how numbers and dates are printed. -/
structure Machine where
  setup : Setup BankSeg AccountInformation (AccountBalance AccountConnection) (AccountBalance InternationalConnection)
    StatusAcknowledgement
  lib : Swift.Lib
  table : List Bankinfo.BankInfo
  forms : Printed.Forms Dec Time.Civil
  libForms : Printed.Forms lib.F Time.Civil

/-- The result of a command: how the run ends, and the client after it. -/
abbrev Result := Option (End × CSt BankSeg AccountInformation)

/-- /repo/cmd/banking/accounts.go:34-42. -/
def accountsCmd (m : Machine) (s : CSt BankSeg AccountInformation) : Result :=
  let r := Client.accounts m.setup s
  some (shown (fun xs => Printed.informations m.forms (xs.map informationRow)) r.1, r.2)

/-- /repo/cmd/banking/balances.go:39-70; `fmt.Println` ends with a line break. -/
def balancesCmd (m : Machine) (c : Client) (f : Flags) (fuel : Nat) (s : CSt BankSeg AccountInformation) : Result :=
  match connection f (Bankinfo.findByBankID m.table f.blz).bic with
  | .err => some (.failed, s)
  | .panic => some (.crashed, s)
  | .ok a =>
    if f.disableSepa then
      let r := accountBalances m.setup c (national a) true s
      some (shown (fun xs => Printed.balances m.forms (xs.map balanceRow) ++ c!"\n") r.1, r.2)
    else
      (sepaAccountBalances m.setup c a true fuel [] s).map fun r =>
        (shown (fun xs => Printed.sepaBalances m.forms (xs.map sepaRow) ++ c!"\n") r.1, r.2)

/-- /repo/cmd/banking/transactions.go:42-86. -/
def transactionsCmd (m : Machine) (c : Client) (f : Flags) (now : Time.Civil) (fuel : Nat) (s : CSt BankSeg AccountInformation) :
    Result :=
  match connection f [] with
  | .err => some (.failed, s)
  | .panic => some (.crashed, s)
  | .ok a =>
    let build := if f.disableSepa then plainBuilder (national a) false else sepaBuilder a false
    (Client.transactions m.setup m.lib c build (timeframe f now) [] fuel s).map fun r =>
      (shown (fun xs => Printed.transactions m.libForms (xs.map transactionRow)) r.1, r.2)

/-- The command of the run. -/
def command (m : Machine) (c : Client) (f : Flags) (now : Time.Civil) (fuel : Nat) (s : CSt BankSeg AccountInformation) :
    Command → Result
  | .accounts => accountsCmd m s
  | .balances => balancesCmd m c f fuel s
  | .transactions => transactionsCmd m c f now fuel s

/-- /repo/cmd/banking/root.go:81-108 `initClient` and the command after it: how the run ends, and
what was sent.  `none` means that it has not ended after `fuel` pages. -/
def run (m : Machine) (f : Flags) (now : Time.Civil) (fuel : Nat) (cmd : Command) : Option (End × List (Sent BankSeg)) :=
  if missing f ≠ [] then some (.refused (c!"Error: required flag(s) " ++ joinNames (missing f) ++ c!" not set\n"), [])
  else
    match Client.new m.setup.world m.table (config f) with
    | .err => some (.failed, [])
    | .panic => some (.crashed, [])
    | .ok (_, c, st) => (command m c f now fuel ⟨st, 0⟩ cmd).map fun x => (x.1, x.2.st.sent)

end Verif.Cli

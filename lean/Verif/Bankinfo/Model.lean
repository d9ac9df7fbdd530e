import Verif.Go

/-
Model of bankinfo/bank_info.go.
-/

namespace Verif.Bankinfo

/-- /repo/bankinfo/bank_info.go:35-44 `BankInfo`; the default is Go's zero value. -/
structure BankInfo where
  bankID : Str := []
  bic : Str := []
  versionNumber : Str := []
  url : Str := []
  versionName : Str := []
  institute : Str := []
  city : Str := []
  lastChanged : Str := []
  deriving DecidableEq, Repr

/-- /repo/bankinfo/bank_info.go:23-31 `FindByBankID`.  The table `data` is an
argument here; in the code it is a package variable. -/
def findByBankID (data : List BankInfo) (id : Str) : BankInfo :=
  data.foldl (fun info entry => if entry.bankID = id then entry else info) {}

/-- /repo/bankinfo/bank_info.go:82-97 `parseVersionName`. -/
def parseVersionName (s : Str) : Option Int :=
  if s = c!"HBCI 2.2 Erweiterung PIN/TAN V1.01" then some 220
  else if s = c!"FinTS V3.0" then some 300
  else if s = c!"FinTS V4.0" then some 400
  else if s = c!"FinTS V4.1" then some 410
  else if s = [] then some (-1)
  else none

/-- /repo/bankinfo/bank_info.go:99-116 `parseVersionNumber`. -/
def parseVersionNumber (s : Str) : Option Int :=
  if s = c!"2.1" then some 210
  else if s = c!"2.2" then some 220
  else if s = c!"3.0" then some 300
  else if s = c!"4.0" then some 400
  else if s = c!"4.1" then some 410
  else if s = [] then some (-1)
  else none

/-- /repo/bankinfo/bank_info.go:66-80 `hbciVersion`.  The floats are small integers,
so `math.Max` is the integer maximum. -/
def hbciVersion (name number : Str) : Option Int :=
  match parseVersionName name, parseVersionNumber number with
  | some a, some b => some (max b a)
  | _, _ => none

/-- /repo/bankinfo/bank_info.go:51-57 `HbciVersion`: an error becomes a panic. -/
def BankInfo.hbciVersion (b : BankInfo) : Outcome Int :=
  match Bankinfo.hbciVersion b.versionName b.versionNumber with
  | some v => .ok v
  | none => .panic

end Verif.Bankinfo

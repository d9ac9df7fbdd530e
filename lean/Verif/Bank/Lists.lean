import Verif.Bank.Elements

/-
Model of the constructors of element/bank_parameter_data.go and
element/user_parameter_data.go that write lists.
-/

namespace Verif.Bank

open GoLib Element

/-- /repo/element/bank_parameter_data.go:91-99 `NewSupportedHBCIVersions` and :131-139
`NewSupportedLanguages`, which differ in the type they note only. -/
def numbersDE (ns : List Int) : DE := .array 1 9 (ns.map fun n => some (.number n 3))

/-- /repo/element/bank_parameter_data.go:203-217 `NewPinTanBusinessTransactionParameters`. -/
def pinJobsDE (js : List (Str × Bool)) : DE :=
  .array js.length js.length (js.map fun j => some (.group 2 [some (.alnum j.1 6), some (.boolean j.2)]))

/-- /repo/element/user_parameter_data.go:56-65 `NewAllowedBusinessTransactions`. -/
def allowedDE (ts : List BusinessTransaction) : DE := .array 0 999 (ts.map fun t => some (businessTransactionDE t))

end Verif.Bank

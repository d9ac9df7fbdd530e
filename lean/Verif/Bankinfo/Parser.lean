import Verif.Bankinfo.Model

/-
Model of bankinfo/parser.go and of what cmd/bankdata_parser makes of it.
-/

namespace Verif.Bankinfo

/-- One line of a CSV file as the code sees it: `record.Get`, which gives the empty text for a column
that the line or the header does not have.  The reader of CSV files itself is not modelled. -/
abbrev Record := Str → Str

/-- `unicode.IsSpace`. -/
def isSpace (c : Char) : Bool :=
  (9 ≤ c.toNat && c.toNat ≤ 13) || c.toNat == 32 || c.toNat == 0x85 || c.toNat == 0xA0 || c.toNat == 0x1680 ||
  (0x2000 ≤ c.toNat && c.toNat ≤ 0x200a) || c.toNat == 0x2028 || c.toNat == 0x2029 || c.toNat == 0x202f || c.toNat == 0x205f ||
  c.toNat == 0x3000

/-- `strings.TrimSpace`. -/
def trimSpace (s : Str) : Str := ((s.dropWhile isSpace).reverse.dropWhile isSpace).reverse

/-- The literal of /repo/bankinfo/parser.go:47-56. -/
def infoOf (r : Record) : BankInfo where
  bankID := trimSpace (r c!"BLZ")
  bic := trimSpace (r c!"BIC")
  versionNumber := trimSpace (r c!"HBCI-Version")
  url := trimSpace (r c!"PIN/TAN-Zugang URL")
  versionName := trimSpace (r c!"Version")
  institute := trimSpace (r c!"Institut")
  city := trimSpace (r c!"Ort")
  lastChanged := trimSpace (r c!"Datum letzte Änderung")

/-- /repo/bankinfo/parser.go:31-60 `ParseBankInfos`; the argument is the result of reading the CSV
file (:32-40). -/
def parseBankInfos (read : Outcome (List Record)) : Outcome (List BankInfo) :=
  match read with
  | .ok records => .ok (records.foldl (fun infos r => if r c!"BLZ" = [] then infos else infos ++ [infoOf r]) [])
  | .err => .err
  | .panic => .panic

/-- /repo/bankinfo/bic_info.go:4-7 `BicInfo`. -/
structure BicInfo where
  bic : Str
  bankID : Str
  deriving DecidableEq, Repr

/-- /repo/bankinfo/parser.go:64-87 `ParseBicData`, likewise. -/
def parseBicData (read : Outcome (List Record)) : Outcome (List BicInfo) :=
  match read with
  | .ok records => .ok (records.foldl (fun infos r =>
      if r c!"Bank-leitzahl" = [] then infos else infos ++ [⟨trimSpace (r c!"BIC"), trimSpace (r c!"Bank-leitzahl")⟩]) [])
  | .err => .err
  | .panic => .panic

/-- The loop over the files, /repo/cmd/bankdata_parser/bankdata_parser.go:29-41; `log.Fatalf` is an
error. -/
def readFiles : List (Outcome (List Record)) → List BankInfo → Outcome (List BankInfo)
  | [], infos => .ok infos
  | file :: files, infos =>
    match parseBankInfos file with
    | .ok more => readFiles files (infos ++ more)
    | .err => .err
    | .panic => .panic

/-- /repo/bankinfo/bank_info.go:64 `SortableBankInfos.Less`.  Go compares bytes, which for UTF-8 is
comparing characters. -/
def less (a b : BankInfo) : Prop := a.bankID < b.bankID

/-- What `sort.Sort` promises, /repo/cmd/bankdata_parser/bankdata_parser.go:42: the same entries, and
none before one that is less.  It does not keep the order of equal ones. -/
def SortedFrom (infos table : List BankInfo) : Prop := table.Perm infos ∧ table.Pairwise fun a b => ¬ less b a

end Verif.Bankinfo

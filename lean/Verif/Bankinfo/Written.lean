import Verif.Bankinfo.Model

/-!
Model of `writeDataToGoFile` of cmd/bankdata_parser/bankdata_parser.go: the Go file with the
table of the banks.
-/

namespace Verif.Bankinfo

/-- The digits of `lowerhex` in strconv/quote.go. -/
def lowerhex (n : Nat) : Char := if n < 10 then Char.ofNat (48 + n) else Char.ofNat (87 + n)

/-- `appendEscapedRune` of strconv/quote.go for the quote `"`, with `isPrint` for
`strconv.IsPrint`. -/
def escapedRune (isPrint : Char → Bool) (c : Char) : Str :=
  let n := c.toNat
  if c = '"' ∨ c = '\\' then ['\\', c]
  else if isPrint c then [c]
  else if n = 7 then ['\\', 'a']
  else if n = 8 then ['\\', 'b']
  else if n = 12 then ['\\', 'f']
  else if n = 10 then ['\\', 'n']
  else if n = 13 then ['\\', 'r']
  else if n = 9 then ['\\', 't']
  else if n = 11 then ['\\', 'v']
  else if n < 32 ∨ n = 127 then ['\\', 'x', lowerhex (n / 16 % 16), lowerhex (n % 16)]
  else if n < 65536 then
    '\\' :: 'u' :: [n / 4096, n / 256, n / 16, n].map fun k => lowerhex (k % 16)
  else
    '\\' :: 'U' :: [n / 268435456, n / 16777216, n / 1048576, n / 65536, n / 4096, n / 256, n / 16, n].map
      fun k => lowerhex (k % 16)

/-- `printf "%q"`.  Simplification: the text is valid UTF-8, as the decoder of `main` makes it. -/
def quote (isPrint : Char → Bool) (s : Str) : Str := '"' :: (s.flatMap (escapedRune isPrint) ++ ['"'])

/-- The part of the template for one element, /repo/cmd/bankdata_parser/bankdata_parser.go:83-92. -/
def writeEntry (isPrint : Char → Bool) (e : BankInfo) : Str :=
  c!"{\n\t\tBankID: \"" ++ e.bankID
    ++ (c!"\",\n\t\tBIC: \"" ++ e.bic
    ++ (c!"\",\n\t\tVersionNumber: \"" ++ e.versionNumber
    ++ (c!"\",\n\t\tURL: \"" ++ e.url
    ++ (c!"\",\n\t\tVersionName: \"" ++ e.versionName
    ++ (c!"\",\n\t\tInstitute: " ++ quote isPrint e.institute
    ++ (c!",\n\t\tCity: \"" ++ e.city
    ++ (c!"\",\n\t\tLastChanged: \"" ++ e.lastChanged
    ++ c!"\",\n\t},\n\t")))))))

/-- /repo/cmd/bankdata_parser/bankdata_parser.go:61-76 `writeDataToGoFile` with the template
:78-94.  Simplification: without the call of `format.Source`, which changes white space
between tokens only. -/
def writeData (isPrint : Char → Bool) (data : List BankInfo) : Str :=
  c!"// Code generated by cmd/bankdata_parser DO NOT EDIT.\n\npackage bankinfo\n\nvar data = []BankInfo{\n\t"
    ++ (data.flatMap (writeEntry isPrint) ++ c!"\n}")

end Verif.Bankinfo

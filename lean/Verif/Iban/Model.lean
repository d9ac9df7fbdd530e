import Verif.GoLib

/-
Model of iban/iban.go.  Strings are byte strings here because the code measures and
cuts them in bytes.
-/

namespace Verif.Iban

open GoLib

/-- `strings.ToUpper` on one byte.  Simplification: exact for ASCII text; other bytes are
left alone (in Go, U+0131 and U+017F become the ASCII letters I and S). -/
def upperByte (b : Byte) : Byte := if 97 ≤ b && b ≤ 122 then b - 32 else b

/-- `strings.ToUpper`, see `upperByte`. -/
def upper (s : Bytes) : Bytes := s.map upperByte

/-- /repo/iban/iban.go:166-193 `alphaToDigit`. -/
def alphaToDigit : List (Byte × Bytes) :=
  [(65, b!"10"), (66, b!"11"), (67, b!"12"), (68, b!"13"), (69, b!"14"), (70, b!"15"), (71, b!"16"), (72, b!"17"),
   (73, b!"18"), (74, b!"19"), (75, b!"20"), (76, b!"21"), (77, b!"22"), (78, b!"23"), (79, b!"24"), (80, b!"25"),
   (81, b!"26"), (82, b!"27"), (83, b!"28"), (84, b!"29"), (85, b!"30"), (86, b!"31"), (87, b!"32"), (88, b!"33"),
   (89, b!"34"), (90, b!"35")]

/-- /repo/iban/iban.go:157-164 `transformLettersToDigits`: every old string is one byte,
so the replacer works byte by byte and the order of the map does not matter. -/
def lettersToDigits (s : Bytes) : Bytes := s.flatMap fun b => (alphaToDigit.lookup b).getD [b]

/-- /repo/iban/iban.go:195-272 `ibanMaxLengthForCountry`. -/
def maxLengthForCountry : List (Bytes × Nat) :=
  [(b!"AL", 28), (b!"AD", 24), (b!"AZ", 28), (b!"BH", 22), (b!"BE", 16), (b!"BA", 20),
   (b!"BR", 29), (b!"VG", 24), (b!"BG", 22), (b!"CR", 22), (b!"DK", 18), (b!"DE", 22),
   (b!"DO", 28), (b!"SV", 28), (b!"EE", 20), (b!"FO", 18), (b!"FI", 18), (b!"FR", 27),
   (b!"GE", 22), (b!"GI", 23), (b!"GR", 27), (b!"GL", 18), (b!"GB", 22), (b!"GT", 28),
   (b!"IQ", 23), (b!"IE", 22), (b!"IS", 26), (b!"IL", 23), (b!"IT", 27), (b!"JO", 30),
   (b!"KZ", 20), (b!"QA", 29), (b!"XK", 20), (b!"HR", 21), (b!"KW", 30), (b!"LV", 21),
   (b!"LB", 28), (b!"LI", 21), (b!"LT", 20), (b!"LU", 20), (b!"MT", 31), (b!"MR", 27),
   (b!"MU", 30), (b!"MK", 19), (b!"MD", 24), (b!"MC", 27), (b!"ME", 22), (b!"NL", 18),
   (b!"NO", 15), (b!"AT", 20), (b!"PK", 24), (b!"PS", 29), (b!"PL", 28), (b!"PT", 25),
   (b!"RO", 24), (b!"LC", 32), (b!"SM", 27), (b!"ST", 25), (b!"SA", 24), (b!"SE", 24),
   (b!"CH", 21), (b!"RS", 22), (b!"SC", 31), (b!"SK", 24), (b!"SI", 19), (b!"ES", 24),
   (b!"TL", 23), (b!"TR", 26), (b!"CZ", 24), (b!"TN", 24), (b!"UA", 29), (b!"HU", 28),
   (b!"AE", 23), (b!"BY", 28), (b!"CY", 28)]

/-- The limit of /repo/iban/iban.go:44-47 for an upper case country code. -/
def maxLength (cc : Bytes) : Nat := (maxLengthForCountry.lookup cc).getD 34

/-- `new(big.Int).SetString(s, 10)`: an optional sign and at least one digit; `none` for
`ok == false`. -/
def bigSet (s : Bytes) : Option Int :=
  let (neg, ds) :=
    match s with
    | 45 :: r => (true, r)
    | 43 :: r => (false, r)
    | r => (false, r)
  if ds = [] ∨ ds.any (fun b => !isDigit b) then none
  else if neg then some (-(digitsVal ds : Int)) else some (digitsVal ds : Int)

/-- /repo/iban/iban.go:38-67 `New`.  `big.Int.Mod` is Euclidean, as is `%` on `Int`. -/
def new (countryCode bban : Bytes) : Outcome Bytes :=
  if countryCode.length ≠ 2 then .err
  else
    let cc := upper countryCode
    if bban.length = 0 then .err
    else if bban.length > maxLength cc - 4 then .err
    else
      let bban := upper bban
      match bigSet (lettersToDigits bban ++ lettersToDigits cc ++ b!"00") with
      | none => .err
      | some step2 => .ok (cc ++ zeroPad 2 (98 - step2 % 97) ++ bban)

/-- /repo/iban/iban.go:27-35 `NewGerman`. -/
def newGerman (bankID accountID : Bytes) : Outcome Bytes :=
  new b!"DE" (bankID ++ (if accountID.length = 10 - 1 then 48 :: accountID else accountID))

/-- `s[lo:]` of a Go string: panics beyond the end. -/
def from' (s : Bytes) (lo : Nat) : Outcome Bytes := if lo ≤ s.length then .ok (s.drop lo) else .panic

/-- `s[lo:hi]` of a Go string for `lo ≤ hi`: panics beyond the end. -/
def slice (s : Bytes) (lo hi : Nat) : Outcome Bytes :=
  if hi ≤ s.length then .ok ((s.drop lo).take (hi - lo)) else .panic

/-- /repo/iban/iban.go:90-92 `BBAN`. -/
def bban (i : Bytes) : Outcome Bytes := from' i 4

/-- /repo/iban/iban.go:95-97 `BankID`. -/
def bankID (i : Bytes) : Outcome Bytes := slice i 4 12

/-- /repo/iban/iban.go:100-103 `AccountID`. -/
def accountID (i : Bytes) : Outcome Bytes := (from' i 12).map' fun a => a.dropWhile (· == 48)

/-- /repo/iban/iban.go:107-109 `CountryCode`. -/
def countryCode (i : Bytes) : Outcome Bytes := slice i 0 2

/-- /repo/iban/iban.go:112-114 `ProofNumber`. -/
def proofNumber (i : Bytes) : Outcome Bytes := slice i 2 4

/-- /repo/iban/iban.go:71-83 `From`. -/
def from_ (input : Bytes) : Outcome Bytes :=
  (slice input 0 2).bind fun cc =>
    (slice input 2 4).bind fun proof =>
      (from' input 4).bind fun b =>
        (new cc b).bind fun iban =>
          (proofNumber iban).bind fun p => if proof ≠ p then .err else .ok iban

/-- /repo/iban/iban.go:117-135 `Valid`. -/
def valid (i : Bytes) : Outcome Bool :=
  if i.length > 34 then .ok false
  else
    (countryCode i).bind fun cc =>
      (bban i).bind fun b =>
        (proofNumber i).bind fun p =>
          match bigSet (lettersToDigits (upper b) ++ lettersToDigits (upper cc) ++ p) with
          | none => .ok false
          | some n => .ok (n % 97 == 1)

/-- /repo/iban/iban.go:15-21 `IsValid`. -/
def isValid (input : Bytes) : Outcome Bool :=
  match from_ input with
  | .ok iban => valid iban
  | .err => .ok false
  | .panic => .panic

/-- The padding loop of /repo/iban/iban.go:146-148, at most three rounds. -/
def padFour (s : Bytes) : Bytes := s ++ List.replicate ((4 - s.length % 4) % 4) 32

/-- The loop of /repo/iban/iban.go:150-153 from the current position on; the length is a
multiple of four. -/
def printLoop : Bytes → Bytes
  | a :: b :: c :: d :: r => a :: b :: c :: d :: 32 :: printLoop r
  | _ => []

/-- ASCII white space as trimmed by `strings.TrimSpace`. -/
def isSpace (b : Byte) : Bool := b == 32 || (9 ≤ b && b ≤ 13)

/-- /repo/iban/iban.go:144-155 `Print`. `strings.TrimSpace` is modelled for ASCII. -/
def print (i : Bytes) : Bytes :=
  (((printLoop (padFour i)).dropWhile isSpace).reverse.dropWhile isSpace).reverse

end Verif.Iban

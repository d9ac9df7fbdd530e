import Verif.Go

/-
Models of the Go standard library functions the code relies on.  They are part of
the trusted base; each comment names the Go function.
-/

namespace Verif.GoLib

/-- `strconv.Itoa` / `fmt.Sprintf("%d")` on natural numbers: digits, most
significant first.  `n + 1` units of fuel are more than the number of digits. -/
def natDecAux : Nat → Nat → Bytes → Bytes
  | 0, _, acc => acc
  | f + 1, n, acc =>
    if n < 10 then UInt8.ofNat (48 + n) :: acc
    else natDecAux f (n / 10) (UInt8.ofNat (48 + n % 10) :: acc)

/-- Decimal digits of a natural number. -/
def natDec (n : Nat) : Bytes := natDecAux (n + 1) n []

/-- `strconv.Itoa` / `%d`. -/
def itoa (i : Int) : Bytes :=
  if i < 0 then 45 :: natDec i.natAbs else natDec i.natAbs

/-- ASCII digit test. -/
def isDigit (b : Byte) : Bool := 48 ≤ b && b ≤ 57

/-- Value of a digit string. -/
def digitsVal (bs : Bytes) : Nat := bs.foldl (fun n d => n * 10 + (d.toNat - 48)) 0

/-- `strconv.Atoi` (64 bit): optional sign, at least one digit, range check.
`none` is a non-nil error.  The argument is the text as bytes; a byte above 127
is never a digit, so Latin-1 or UTF-8 makes no difference. -/
def atoi (s : Bytes) : Option Int :=
  let (neg, ds) :=
    match s with
    | 45 :: r => (true, r)
    | 43 :: r => (false, r)
    | r => (false, r)
  if ds = [] ∨ ds.any (fun b => !isDigit b) then none
  else
    let v := digitsVal ds
    if neg then (if v ≤ 2 ^ 63 then some (-(v : Int)) else none)
    else (if v < 2 ^ 63 then some (v : Int) else none)

/-- `fmt.Sprintf("%0<w>d", i)`: zero padding to width `w`, the sign counts. -/
def zeroPad (w : Nat) (i : Int) : Bytes :=
  let ds := natDec i.natAbs
  if i < 0 then 45 :: (List.replicate (w - 1 - ds.length) 48 ++ ds)
  else List.replicate (w - ds.length) 48 ++ ds

/-- `bytes.Join(parts, sep)` with a one byte separator. -/
def join (sep : Byte) : List Bytes → Bytes
  | [] => []
  | [p] => p
  | p :: ps => p ++ sep :: join sep ps

/-- `bytes.TrimRight(s, string(c))` with a one byte cutset. -/
def trimRight (c : Byte) (s : Bytes) : Bytes :=
  (s.reverse.dropWhile (· == c)).reverse

/-- `bytes.Split(s, sep)` with a one byte separator: always at least one part. -/
def split (sep : Byte) : Bytes → List Bytes
  | [] => [[]]
  | b :: r =>
    if b == sep then [] :: split sep r
    else
      match split sep r with
      | [] => [[b]]
      | p :: ps => (b :: p) :: ps

/-- `sort.Search(n, f)`: binary search over `[i, j)`, with fuel. -/
def searchLoop (f : Nat → Bool) : Nat → Nat → Nat → Nat
  | 0, i, _ => i
  | fuel + 1, i, j =>
    if i < j then
      let h := (i + j) / 2
      if !f h then searchLoop f fuel (h + 1) j else searchLoop f fuel i h
    else i

/-- `sort.Search(n, f)`.  The interval at least halves, so `n` units suffice. -/
def search (n : Nat) (f : Nat → Bool) : Nat := searchLoop f n 0 n

end Verif.GoLib

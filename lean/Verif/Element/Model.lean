import Verif.Charset
import Verif.Time
import Verif.Token.Lexer

/-
Model of element/data_element.go and element/element_extractor.go.
-/

namespace Verif.Element

open GoLib Charset

/-! ## Text -/

/-- The five characters of the HBCI syntax. -/
def special (c : Char) : Bool := c == '?' || c == '@' || c == '\'' || c == ':' || c == '+'

/-- /repo/element/data_element.go:223-226 `escape`. -/
def escape (s : Str) : Str := s.flatMap fun c => if special c then ['?', c] else [c]

/-- /repo/element/data_element.go:228-231 `unescape`: the replacer works from left
to right; `?` before any other character is copied. -/
def unescape : Str → Str
  | '?' :: c :: r => if special c then c :: unescape r else '?' :: unescape (c :: r)
  | c :: r => c :: unescape r
  | [] => []

/-- /repo/element/data_element.go:259-262 and 290-293: `MarshalHBCI` of
alphanumeric and text elements. -/
def marshalText (v : Str) : Outcome Bytes := toISO (escape v)

/-- /repo/element/data_element.go:265-270 and 296-301: `UnmarshalHBCI` of
alphanumeric and text elements. -/
def unmarshalText (b : Bytes) : Str := unescape (toUTF8 b)

/-- Length of a Go string in bytes (UTF-8). -/
def strLen (s : Str) : Nat := (s.map fun c => c.utf8Size).sum

/-! ## Decimal fractions -/

/-- A finite `float64`, represented by the decimal text that
`strconv.FormatFloat(x, 'f', -1, 64)` prints: sign, integer part, fraction digits.
Simplification: rounding to binary is not modelled; the representation is exact
for values of up to 15 significant digits.  Infinities and NaN are left out. -/
structure Dec where
  neg : Bool
  int : Nat
  frac : Bytes
  deriving DecidableEq, Repr

/-- `strconv.FormatFloat(x, 'f', -1, 64)`. -/
def Dec.format (x : Dec) : Bytes :=
  (if x.neg then [45] else []) ++ natDec x.int ++ (if x.frac = [] then [] else 46 :: x.frac)

/-- Replace the first occurrence of `a` by `b`: `strings.Replace(s, a, b, 1)`. -/
def replaceFirst (a b : Byte) : Bytes → Bytes
  | [] => []
  | c :: r => if c == a then b :: r else c :: replaceFirst a b r

/-- An optional sign in front of a number. -/
def signOf : Bytes → Bool × Bytes
  | 45 :: r => (true, r)
  | 43 :: r => (false, r)
  | r => (false, r)

/-- `strconv.ParseFloat(s, 64)` on plain decimal notation.  Simplification:
exponents, hexadecimal, `inf` and `nan` are rejected by the model. -/
def parseFloat (s : Bytes) : Option Dec :=
  let r := (signOf s).2
  let ip := r.takeWhile isDigit
  match r.dropWhile isDigit with
  | [] => if ip = [] then none else some ⟨(signOf s).1, digitsVal ip, []⟩
  | c :: fr =>
    if c == 46 && fr.all isDigit && !(ip.isEmpty && fr.isEmpty) then
      some ⟨(signOf s).1, digitsVal ip, trimRight 48 fr⟩
    else none

/-- /repo/element/data_element.go:377-384 `FloatDataElement.String`. -/
def floatString (x : Dec) : Bytes :=
  let s := replaceFirst 46 44 x.format
  if s.contains 44 then s else s ++ [44]

/-- /repo/element/data_element.go:392-400 `FloatDataElement.UnmarshalHBCI`. -/
def unmarshalFloat (b : Bytes) : Outcome Dec := .ofOption (parseFloat (replaceFirst 44 46 b))

/-! ## Binary -/

/-- /repo/element/data_element.go:445-451 `BinaryDataElement.MarshalHBCI`. -/
def marshalBinary (d : Bytes) : Bytes := 64 :: natDec d.length ++ 64 :: d

/-- The largest allocation `make([]byte, n)` grants before it panics (linux/amd64);
running out of memory below that is not modelled. -/
def maxAlloc : Int := 2 ^ 48

/-- /repo/element/data_element.go:454-478 `BinaryDataElement.UnmarshalHBCI`. -/
def unmarshalBinary (v : Bytes) : Outcome Bytes :=
  match v with
  | [] => .err
  | c :: r =>
    if c ≠ 64 then .err
    else
      -- buf.ReadString('@') fails without a second '@'
      match r.dropWhile (· != 64) with
      | [] => .err
      | _ :: rest =>
        match atoi (r.takeWhile (· != 64)) with
        | none => .err
        | some n =>
          if n < 0 ∨ maxAlloc < n then .panic
          else
            -- buf.Read: EOF only if the buffer is empty and data is wanted
            if rest = [] ∧ n ≠ 0 then .err
            else .ok (rest.take n.toNat ++ List.replicate (n.toNat - rest.length) 0)

/-! ## Numbers -/

/-- /repo/element/data_element.go:350-352: `%v` of an int. -/
def marshalNumber (n : Int) : Bytes := itoa n

/-- /repo/element/data_element.go:355-362 (and 327-334 for digits): the value;
the new maximal length is the length of the text. -/
def unmarshalNumber (b : Bytes) : Outcome Int := .ofOption (atoi b)

/-- /repo/element/data_element.go:316-324 `DigitDataElement.MarshalHBCI`. -/
def marshalDigit (n : Int) (max : Nat) : Bytes := zeroPad max n

/-- /repo/element/data_element.go:701-709 `CountryCodeDataElement.UnmarshalHBCI`:
a parse error is swallowed and the receiver stays as it was (`none`). -/
def unmarshalCountry (b : Bytes) : Outcome (Option Int) := .ok (atoi b)

/-! ## Boolean, date, time -/

/-- /repo/element/data_element.go:495-505. -/
def marshalBool (v : Bool) : Bytes := if v then [74] else [78]

/-- /repo/element/data_element.go:508-518. -/
def unmarshalBool (b : Bytes) : Outcome Bool :=
  if b = [74] then .ok true else if b = [78] then .ok false else .err

/-- /repo/element/data_element.go:571-578. -/
def marshalDate (t : Time.Civil) : Bytes := Time.format8 t

/-- /repo/element/data_element.go:581-588. -/
def unmarshalDate (b : Bytes) : Outcome Time.Civil := .ofOption (Time.parse8 b)

/-- /repo/element/data_element.go:629-636. -/
def marshalTime (t : Time.Civil) : Bytes := Time.format6 t

/-- /repo/element/data_element.go:639-646. -/
def unmarshalTime (b : Bytes) : Outcome Time.Civil := .ofOption (Time.parse6 b)

/-! ## Codes -/

/-- Go's `<=` on strings.  UTF-8 keeps the order of the code points. -/
def strLe : Str → Str → Bool
  | [], _ => true
  | _ :: _, [] => false
  | a :: x, b :: y => if a.toNat < b.toNat then true else if b.toNat < a.toNat then false else strLe x y

/-- /repo/element/data_element.go:521-527 `NewCode` sorts the valid set in place. -/
def newCodeSet (validSet : List Str) : List Str := validSet.mergeSort strLe

/-- `sort.SearchStrings(a, x)`: binary search for the first element ≥ `x`. -/
def searchStrings (a : List Str) (x : Str) : Nat :=
  search a.length fun i => (a[i]?).any fun y => strLe x y

/-- /repo/element/data_element.go:247-252 `AlphaNumericDataElement.IsValid`. The
set of forbidden characters is the text `"\n & \r"`, which includes the blank and
the ampersand. -/
def alnumIsValid (v : Str) (max : Int) : Bool :=
  if v.any fun c => c == '\n' || c == ' ' || c == '&' || c == '\r' then false
  else decide ((strLen v : Int) ≤ max)

/-- /repo/element/data_element.go:542-547 `CodeDataElement.IsValid`. -/
def codeIsValid (v : Str) (max : Int) (validSet : List Str) : Bool :=
  if searchStrings validSet v ≥ validSet.length then false else alnumIsValid v max

/-- /repo/element/data_element.go:62-64 for a boolean (maximal length 1, :481-483):
the length is that of `%v`, i.e. of `true` or `false`. -/
def boolIsValid (v : Bool) : Bool := decide ((if v then strLen c!"true" else strLen c!"false") ≤ 1)

/-- /repo/element/data_element.go:62-64 for an int (number, digit, country code). -/
def intIsValid (v : Int) (max : Int) : Bool := decide (((itoa v).length : Int) ≤ max)

/-- `fmt.Sprintf("%v", d)` of a byte slice: decimal numbers in brackets. -/
def bytesText (d : Bytes) : Bytes := 91 :: join 32 (d.map fun b => natDec b.toNat) ++ [93]

/-- /repo/element/data_element.go:62-64 for binary data: the length compared with
the maximum is that of the printed slice. -/
def binaryIsValid (d : Bytes) (max : Int) : Bool := decide (((bytesText d).length : Int) ≤ max)

/-- /repo/element/data_element.go:591-593 and 649-651. -/
def timeIsValid (t : Time.Civil) : Bool := !Time.isZero t

/-! ## Elements -/

/-- Data elements; each constructor is one Go type of data_element.go with its
value and maximal length.  `group` is any type embedding an `elementGroup` (:89-187)
with its elements, nil pointers being `none`; `array` is `arrayElementGroup`
(:190-221). -/
inductive DE where
  | alnum (v : Str) (max : Int)
  | text (v : Str) (max : Int)
  | digit (v : Int) (max : Nat)
  | number (v : Int) (max : Int)
  | float (v : Dec) (max : Int)
  | dtaus (v : Bytes) (max : Int)
  | binary (v : Bytes) (max : Int)
  | boolean (v : Bool)
  | code (v : Str) (max : Int) (validSet : List Str)
  | date (t : Time.Civil)
  | virtualDate (v : Int) (max : Int)
  | time (t : Time.Civil)
  | identification (v : Str) (max : Int)
  | countryCode (v : Int) (max : Nat)
  | currency (v : Str) (max : Int)
  | value (v : Dec) (max : Int)
  | group (count : Nat) (elems : List (Option DE))
  | array (min max : Nat) (elems : List (Option DE))

mutual
/-- `MarshalHBCI` of every element type; for groups
/repo/element/data_element.go:143-157 (join with `:`, then cut every `:` at the
right end). -/
def DE.marshal : DE → Outcome Bytes
  | .alnum v _ => marshalText v
  | .text v _ => marshalText v
  | .digit v max => .ok (marshalDigit v max)
  | .number v _ => .ok (marshalNumber v)
  | .float v _ => .ok (floatString v)
  | .dtaus v _ => .ok (marshalBinary v)
  | .binary v _ => .ok (marshalBinary v)
  | .boolean v => .ok (marshalBool v)
  | .code v _ _ => marshalText v
  | .date t => .ok (marshalDate t)
  | .virtualDate v _ => .ok (marshalNumber v)
  | .time t => .ok (marshalTime t)
  | .identification v _ => marshalText v
  | .countryCode v max => .ok (marshalDigit v max)
  | .currency v _ => marshalText v
  | .value v _ => .ok (floatString v)
  | .group _ es => (DE.marshalAll es).map' fun ps => trimRight 58 (join 58 ps)
  | .array _ _ es => (DE.marshalAll es).map' fun ps => trimRight 58 (join 58 ps)

/-- The loop of `elementGroup.MarshalHBCI` (:144-153): nil elements stay empty. -/
def DE.marshalAll : List (Option DE) → Outcome (List Bytes)
  | [] => .ok []
  | e :: r => (DE.marshalOpt e).bind fun b => (DE.marshalAll r).map' fun ps => b :: ps

/-- One element of the loop. -/
def DE.marshalOpt : Option DE → Outcome Bytes
  | none => .ok []
  | some e => e.marshal
end

/-! ## Extraction of group elements -/

/-- /repo/element/element_extractor.go:17-27: a `+` is appended unless the text
contains a `+` or a `'` anywhere. -/
def terminated (g : Bytes) : Bytes := if g.any (fun b => b == 43 || b == 39) then g else g ++ [43]

/-- The loop of /repo/element/element_extractor.go:36-55 over the lexer's tokens;
`cur` and `acc` are `current` and `e.elements`.  The loop ends after EOF or ERROR
since `HasNext` is then false. -/
def extractLoop : List Token.Token → Bytes → List Bytes → Outcome (List Bytes)
  | [], _, acc => .ok acc
  | t :: ts, cur, acc =>
    if t.typ = .error then .err
    else if t.isSyntaxSymbol then extractLoop ts [] (acc ++ [cur])
    else extractLoop ts (cur ++ t.val) acc

/-- /repo/element/element_extractor.go:11-14 `ExtractElements`. -/
def extractElements (g : Bytes) : Outcome (List Bytes) :=
  match Token.lex (terminated g) with
  | .done ts => extractLoop ts [] []
  | _ => .panic

end Verif.Element

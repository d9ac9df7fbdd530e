import Verif.Bankinfo.Model

/-!
A reader for Go files that consist of a declaration `var data = []BankInfo{…}` only, after
the Go specification.  This is specification, not code of the repository: what the compiler
makes of the written file.
-/

namespace Verif.Bankinfo.GoText

/-- A token of Go. -/
inductive Tok
  | punct (c : Char)
  | word (s : Str)
  /-- a string literal and its value -/
  | text (s : Str)
deriving DecidableEq, Repr

/-- Where the reader is.  Texts are kept in reverse order while they are read. -/
inductive Mode
  /-- between tokens; `semi`: the end of the line puts a semicolon -/
  | code (semi : Bool)
  | slash (semi : Bool)
  | comment (semi : Bool)
  | word (acc : Str)
  | text (acc : Str)
  | escape (acc : Str)
  /-- in an escape with `left` more digits for a character below `limit` -/
  | hex (acc : Str) (left limit value : Nat)
deriving DecidableEq, Repr

def letter (c : Char) : Bool := 'a' ≤ c && c ≤ 'z' || 'A' ≤ c && c ≤ 'Z' || c == '_'

def hexValue (c : Char) : Option Nat :=
  if '0' ≤ c ∧ c ≤ '9' then some (c.toNat - 48)
  else if 'a' ≤ c ∧ c ≤ 'f' then some (c.toNat - 87)
  else if 'A' ≤ c ∧ c ≤ 'F' then some (c.toNat - 55)
  else none

/-- Characters the compiler accepts nowhere: NUL and a byte order mark within the file. -/
def Forbidden (c : Char) : Prop := c.toNat = 0 ∨ c.toNat = 0xFEFF

instance (c : Char) : Decidable (Forbidden c) := inferInstanceAs (Decidable (_ ∨ _))

/-- One character between tokens.  Numbers, operators and raw strings are refused, the file
has no use for them. -/
def codeStep (semi : Bool) (c : Char) : Option (List Tok × Mode) :=
  if letter c then some ([], .word [c])
  else if c = '"' then some ([], .text [])
  else if c = '\n' then some (if semi then [.punct ';'] else [], .code false)
  else if c = ' ' ∨ c = '\t' ∨ c = '\r' then some ([], .code semi)
  else if c = '/' then some ([], .slash semi)
  else if c = '}' ∨ c = ']' then some ([.punct c], .code true)
  else if c = '{' ∨ c = '[' ∨ c = ':' ∨ c = ',' ∨ c = '=' then some ([.punct c], .code false)
  else none

/-- The character a simple escape stands for. -/
def simpleEscapes : List (Char × Char) :=
  [('a', Char.ofNat 7), ('b', Char.ofNat 8), ('f', Char.ofNat 12), ('n', Char.ofNat 10), ('r', Char.ofNat 13),
   ('t', Char.ofNat 9), ('v', Char.ofNat 11), ('\\', '\\'), ('"', '"')]

/-- One character: the tokens that are complete, and where the reader is then.  Escapes for
bytes that are not ASCII, and octal ones, are refused. -/
def step (m : Mode) (c : Char) : Option (List Tok × Mode) :=
  if Forbidden c then none
  else match m with
  | .code semi => codeStep semi c
  | .slash semi => if c = '/' then some ([], .comment semi) else none
  | .comment semi => if c = '\n' then codeStep semi c else some ([], .comment semi)
  | .word acc =>
    if letter c then some ([], .word (c :: acc))
    else (codeStep true c).map fun p => (.word acc.reverse :: p.1, p.2)
  | .text acc =>
    if c = '"' then some ([.text acc.reverse], .code true)
    else if c = '\\' then some ([], .escape acc)
    else if c = '\n' then none
    else some ([], .text (c :: acc))
  | .escape acc =>
    if c = 'x' then some ([], .hex acc 2 128 0)
    else if c = 'u' then some ([], .hex acc 4 0x110000 0)
    else if c = 'U' then some ([], .hex acc 8 0x110000 0)
    else (simpleEscapes.lookup c).map fun d => ([], .text (d :: acc))
  | .hex acc left limit value =>
    match hexValue c with
    | none => none
    | some d =>
      let value := 16 * value + d
      if 1 < left then some ([], .hex acc (left - 1) limit value)
      else if value < limit ∧ value.isValidChar then some ([], .text (Char.ofNat value :: acc))
      else none

/-- The tokens of a text, and where the reader is at its end. -/
def run (m : Mode) : Str → Option (List Tok × Mode)
  | [] => some ([], m)
  | c :: r =>
    match step m c with
    | none => none
    | some (ts, m') => (run m' r).map fun p => (ts ++ p.1, p.2)

/-- The tokens of a file.  A file that ends within a token is refused. -/
def tokens (s : Str) : Option (List Tok) :=
  match run (.code false) s with
  | some (ts, .code _) => some ts
  | _ => none

/-- The fields of `BankInfo`. -/
def fieldNames : List Str :=
  [c!"BankID", c!"BIC", c!"VersionNumber", c!"URL", c!"VersionName", c!"Institute", c!"City", c!"LastChanged"]

/-- Where the reader of the composite literal is; `fs` are the fields given so far. -/
inductive Place
  /-- before an element or the end -/
  | element
  | afterElement
  /-- before a field or the end of the element -/
  | key (fs : List (Str × Str))
  | colon (fs : List (Str × Str)) (k : Str)
  | value (fs : List (Str × Str)) (k : Str)
  | afterValue (fs : List (Str × Str))
  | done
deriving DecidableEq, Repr

/-- The value of an element: fields that are not given are empty. -/
def valueOf (fs : List (Str × Str)) : BankInfo where
  bankID := (fs.lookup c!"BankID").getD []
  bic := (fs.lookup c!"BIC").getD []
  versionNumber := (fs.lookup c!"VersionNumber").getD []
  url := (fs.lookup c!"URL").getD []
  versionName := (fs.lookup c!"VersionName").getD []
  institute := (fs.lookup c!"Institute").getD []
  city := (fs.lookup c!"City").getD []
  lastChanged := (fs.lookup c!"LastChanged").getD []

/-- One token: the elements that are complete, and where the reader is then.  A field that
does not exist, or occurs twice, is an error. -/
def take (p : Place) (t : Tok) : Option (List BankInfo × Place) :=
  match p, t with
  | .element, .punct '{' => some ([], .key [])
  | .element, .punct '}' => some ([], .done)
  | .afterElement, .punct ',' => some ([], .element)
  | .afterElement, .punct '}' => some ([], .done)
  | .key fs, .word k => some ([], .colon fs k)
  | .key fs, .punct '}' => some ([valueOf fs], .afterElement)
  | .colon fs k, .punct ':' => some ([], .value fs k)
  | .value fs k, .text s =>
    if k ∈ fieldNames ∧ k ∉ fs.map Prod.fst then some ([], .afterValue (fs ++ [(k, s)])) else none
  | .afterValue fs, .punct ',' => some ([], .key fs)
  | .afterValue fs, .punct '}' => some ([valueOf fs], .afterElement)
  | .done, .punct ';' => some ([], .done)
  | _, _ => none

/-- The elements of the literal. -/
def elements (p : Place) : List Tok → Option (List BankInfo)
  | [] => if p = .done then some [] else none
  | t :: r =>
    match take p t with
    | none => none
    | some (es, p') => (elements p' r).map (es ++ ·)

/-- What the declarations before the literal are. -/
def header : List Tok :=
  [.word c!"package", .word c!"bankinfo", .punct ';', .word c!"var", .word c!"data", .punct '=', .punct '[',
   .punct ']', .word c!"BankInfo", .punct '{']

/-- The value of `data` in a Go file, if it compiles. -/
def compile (file : Str) : Option (List BankInfo) :=
  match tokens file with
  | none => none
  | some ts => if ts.take header.length = header then elements .element (ts.drop header.length) else none

end Verif.Bankinfo.GoText

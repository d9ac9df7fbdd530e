import Verif.Token.Scan
import Verif.Token.Refine

/-
Model of the SWIFT lexer: /repo/token/swift_lexer.go, on the scanner of
/repo/token/lexer.go as modelled in `Verif.Token.Lexer`.

`backup` at position 0 stays at 0, in Go it becomes -1.  For this lexer that needs an empty
input; `lexSwiftEntryPoint` then reports an error at once and the position is never used.
-/

namespace Verif.Swift

open Token (Lexer Typ Token Drain digits)

/-- The state functions of /repo/token/swift_lexer.go:28-164. -/
inductive St where
  | entry
  | tagId
  | start
  | symbol
  | digit
  | alpha
  | character
  | alnum
  deriving DecidableEq, Repr

/-- What one call of a state function does, as in `Token.Step`. -/
inductive Step where
  | go (l : Lexer) (tok : Option Token) (next : Option St)
  | panic
  deriving DecidableEq, Repr

/-- /repo/token/lexer.go:87-91 `emit`, followed by returning the state `st`. -/
def emit (l : Lexer) (t : Typ) (st : Option St) : Step :=
  match l.slice l.start l.pos with
  | none => .panic
  | some v => .go { l with start := l.pos } (some ⟨t, v, l.start⟩) st

/-- /repo/token/lexer.go:141-145 `errorf`. -/
def errorf (l : Lexer) (msg : Bytes) : Step :=
  .go l (some ⟨.error, msg, l.start⟩) none

/-- /repo/token/swift_lexer.go:7 `unexpectedEOF`. -/
def unexpectedEOF : Bytes := b!"unexpected end of input"

/-- `l.accept(carriageReturn) && l.accept(lineFeed)`; the second call only happens if the
first succeeds. -/
def acceptLine (l : Lexer) : Bool × Lexer :=
  let (cr, l1) := l.accept [13]
  if cr then l1.accept [10] else (false, l1)

/-- /repo/token/swift_lexer.go:28-34 `lexSwiftEntryPoint`. -/
def lexEntry (l : Lexer) : Step :=
  let (ok, l1) := acceptLine l
  if ok then emit l1 .swiftDatasetStart (some .tagId) else errorf l1 b!"Malformed swift dataset"

/-- `'A' <= r && r <= 'Z'`. -/
def isUpper (r : Byte) : Bool := decide (65 ≤ r) && decide (r ≤ 90)

/-- `'0' <= r && r <= '9'`. -/
def isNum (r : Byte) : Bool := decide (48 ≤ r) && decide (r ≤ 57)

/-- The message of /repo/token/swift_lexer.go:40. -/
def tagNoDigit : Bytes := b!"malformed swift tag identifier: must start with a digit"

/-- The message of /repo/token/swift_lexer.go:47. -/
def tagNotClosed : Bytes := b!"malformed swift tag identifier: must be enclodes by ':'"

/-- /repo/token/swift_lexer.go:36-51 `lexTagID`. -/
def lexTagId (l : Lexer) : Step :=
  let l1 := (l.accept [58]).2
  let (ok, l2) := l1.accept digits
  if !ok then errorf l2 tagNoDigit
  else
    let l3 := l2.acceptRun digits
    let (p, l4) := l3.peek
    let l5 := if isUpper p then l4.next.2 else l4
    let (ok, l6) := l5.accept [58]
    if !ok then errorf l6 tagNotClosed
    else emit l6 .swiftTag (some .start)

/-- /repo/token/swift_lexer.go:53-70 `lexSwiftStart`. -/
def lexStart (l : Lexer) : Step :=
  let (r, l1) := l.next
  if isNum r then .go l1 none (some .digit)
  else if isUpper r then .go l1 none (some .alpha)
  else if r == 13 then .go l1.backup none (some .symbol)
  else if r == 0 then emit l1 .eof none
  else .go l1 none (some .alnum)

/-- /repo/token/swift_lexer.go:72-88 `lexSwiftSyntaxSymbol`. -/
def lexSymbol (l : Lexer) : Step :=
  let (ok, l1) := acceptLine l
  if ok then
    let (p, l2) := l1.peek
    if p == 0 then errorf l2 unexpectedEOF
    else if p == 45 then emit l2.next.2 .swiftMessageSeparator (some .start)
    else emit l2 .swiftTagSeparator (some .tagId)
  else errorf l1 b!"Malformed syntax symbol"

/-- /repo/token/swift_lexer.go:166-198 `isTagBoundary`; the position is restored at the end,
so only the answer matters. -/
def isTagBoundary (l : Lexer) : Bool :=
  let (ok, l1) := acceptLine l
  let rest := l1.input.drop l1.pos
  ok && (rest.take 2 == [45, 58] || rest.take 3 == [45, 13, 10] ||
    (decide (3 ≤ rest.length) && rest.take 1 == [58] && isNum (rest.getD 1 0)) || rest == [45])

/-- /repo/token/swift_lexer.go:90-106 `lexSwiftDigit`. -/
def lexDigit (l : Lexer) : Step :=
  let l1 := l.acceptRun digits
  let (comma, l2) := l1.accept [44]
  if comma then
    let l3 := l2.acceptRun digits
    let (p, l4) := l3.peek
    if p == 13 then emit l4 .swiftDecimal (some .start) else .go l4 none (some .alnum)
  else if isTagBoundary l2 then emit l2 .swiftNumeric (some .start)
  else .go l2 none (some .character)

/-- /repo/token/swift_lexer.go:108-125 `lexSwiftAlpha`. -/
def lexAlpha (l : Lexer) : Step :=
  let (r, l1) := l.next
  if isUpper r then .go l1 none (some .alpha)
  else if isNum r then .go l1 none (some .character)
  else if r == 13 then emit l1.backup .swiftAlpha (some .start)
  else if r == 0 then errorf l1 unexpectedEOF
  else .go l1 none (some .alnum)

/-- /repo/token/swift_lexer.go:127-144 `lexSwiftCharacter`. -/
def lexCharacter (l : Lexer) : Step :=
  let (r, l1) := l.next
  if isUpper r then .go l1 none (some .character)
  else if isNum r then .go l1 none (some .character)
  else if r == 13 then emit l1.backup .swiftCharacter (some .start)
  else if r == 0 then errorf l1 unexpectedEOF
  else .go l1 none (some .alnum)

/-- /repo/token/swift_lexer.go:146-164 `lexSwiftAlphaNumeric`. -/
def lexAlnum (l : Lexer) : Step :=
  let (r, l1) := l.next
  if r == 13 then
    let l2 := l1.backup
    if isTagBoundary l2 then emit l2 .swiftAlphaNumeric (some .symbol)
    else .go l2.next.2 none (some .alnum)
  else if r == 0 then errorf l1 unexpectedEOF
  else .go l1 none (some .alnum)

/-- Calling the current state function. -/
def step (st : St) (l : Lexer) : Step :=
  match st with
  | .entry => lexEntry l
  | .tagId => lexTagId l
  | .start => lexStart l
  | .symbol => lexSymbol l
  | .digit => lexDigit l
  | .alpha => lexAlpha l
  | .character => lexCharacter l
  | .alnum => lexAlnum l

/-! ## The driver -/

/-- The scanner, the state function and the channel buffer, /repo/token/lexer.go:33-40. -/
structure LState where
  lx : Lexer
  st : Option St
  chan : List Token
  deriving DecidableEq, Repr

/-- /repo/token/swift_lexer.go:17-21 `NewSwiftLexer`. -/
def newLexer (input : Bytes) : LState := ⟨⟨input, 0, 0⟩, some .entry, []⟩

/-- Result of `Next`, as in `Token.NextRes`. -/
inductive NextRes where
  | tok (t : Token) (s : LState)
  | panic
  | blocked
  | timeout
  deriving DecidableEq, Repr

/-- /repo/token/lexer.go:63-79 `Next`, with fuel for its `for` loop. -/
def LState.next : Nat → LState → NextRes
  | 0, _ => .timeout
  | n + 1, s =>
    match s.chan with
    | t :: ts => .tok t { s with chan := ts }
    | [] =>
      match s.st with
      | none => .panic
      | some st =>
        match step st s.lx with
        | .panic => .panic
        | .go l none st' => LState.next n ⟨l, st', s.chan⟩
        | .go l (some t) st' =>
          if s.chan.length < 2 then LState.next n ⟨l, st', s.chan ++ [t]⟩
          else .blocked

/-- The loop `for lexer.HasNext() { tok := lexer.Next(); ... }`, e.g.
/repo/swift/message_extractor.go:29-39, collecting every token.  One call of `Next` runs at
most one state function per byte and a few more. -/
def LState.drain : Nat → LState → Drain
  | 0, s => if s.st.isSome then .timeout [] else .done []
  | n + 1, s =>
    if s.st.isSome then
      match s.next (2 * s.lx.input.length + 8) with
      | .tok t s' => (LState.drain n s').cons t
      | .panic => .panic []
      | .blocked => .blocked []
      | .timeout => .timeout []
    else .done []

/-- Draining a fresh lexer over `input`. -/
def lex (input : Bytes) : Drain := (newLexer input).drain (input.length + 2)

end Verif.Swift

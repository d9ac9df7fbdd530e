import Verif.Go

/-
Model of the HBCI lexer: /repo/token/lexer.go.

The lexer is modelled on positions exactly as written, including the quirk that
`backup` always steps back although `next` does not advance at the end of the
input.  Positions are `Nat`; `backup` at position 0 stays at 0 (in Go it would
become -1; in this lexer that needs `backup` right after `next` on an empty
input, and on an empty input `lexStart` emits EOF at once).
-/

namespace Verif.Token

/-- /repo/token/token.go:92-160, the token types the two lexers emit.
Simplification: types no lexer emits are left out. -/
inductive Typ where
  | error
  | dataElementSeparator
  | groupDataElementSeparator
  | segmentEndMarker
  | binaryData
  | alphaNumeric
  | text
  | numeric
  | digit
  | float
  | eof
  | swiftDatasetStart
  | swiftTag
  | swiftTagSeparator
  | swiftMessageSeparator
  | swiftAlpha
  | swiftCharacter
  | swiftNumeric
  | swiftDecimal
  | swiftAlphaNumeric
  deriving DecidableEq, Repr

/-- /repo/token/token.go:48-52 `elementToken`. -/
structure Token where
  typ : Typ
  val : Bytes
  pos : Nat
  deriving DecidableEq, Repr

/-- /repo/token/token.go:65-76 `elementToken.IsSyntaxSymbol`. -/
def Token.isSyntaxSymbol (t : Token) : Bool :=
  match t.typ with
  | .groupDataElementSeparator => true
  | .dataElementSeparator => true
  | .segmentEndMarker => true
  | _ => false

/-- /repo/token/lexer.go:33-40 `Lexer`, without the channel and the state
function, which the driver (`LState`) holds, and without the unused name. -/
structure Lexer where
  input : Bytes
  pos : Nat
  start : Nat
  deriving DecidableEq, Repr

/-- The state functions (/repo/token/lexer.go:149-280), `LexerStateFn` values.
A nil `LexerStateFn` is `none` of `Option St`. -/
inductive St where
  | start
  | alnum
  | binary
  | digit
  | number
  deriving DecidableEq, Repr

/-- What one call of a state function does: it panics, or it leaves a lexer, at
most one token sent to the channel, and the next state function. -/
inductive Step where
  | go (l : Lexer) (tok : Option Token) (next : Option St)
  | panic
  deriving DecidableEq, Repr

/-- /repo/token/lexer.go:282-284 `isDelimiter`. -/
def isDelimiter (r : Byte) : Bool := r == 43 || r == 39 || r == 58

/-- /repo/token/lexer.go:286-288 `isSyntaxSymbol`. -/
def isSyntaxSymbol (r : Byte) : Bool := r == 43 || r == 39 || r == 58 || r == 63 || r == 64

/-- The `digits` set of /repo/token/lexer.go:207, 235, 263. -/
def digits : Bytes := [48, 49, 50, 51, 52, 53, 54, 55, 56, 57]

namespace Lexer

/-- /repo/token/lexer.go:94-101 `next`. -/
def next (l : Lexer) : Byte × Lexer :=
  match l.input[l.pos]? with
  | none => (0, l)
  | some b => (b, { l with pos := l.pos + 1 })

/-- /repo/token/lexer.go:110-112 `backup`. -/
def backup (l : Lexer) : Lexer := { l with pos := l.pos - 1 }

/-- /repo/token/lexer.go:116-120 `peek`. -/
def peek (l : Lexer) : Byte × Lexer :=
  let (r, l1) := l.next
  (r, l1.backup)

/-- /repo/token/lexer.go:124-130 `accept`. -/
def accept (l : Lexer) (valid : Bytes) : Bool × Lexer :=
  let (r, l1) := l.next
  if valid.contains r then (true, l1) else (false, l1.backup)

/-- /repo/token/lexer.go:133-137, the loop of `acceptRun`, with fuel. -/
def acceptRunLoop (valid : Bytes) : Nat → Lexer → Lexer
  | 0, l => l
  | n + 1, l =>
    let (r, l1) := l.next
    if valid.contains r then acceptRunLoop valid n l1 else l1

/-- /repo/token/lexer.go:133-137 `acceptRun`.  The fuel covers every byte left
and the terminating call of `next`. -/
def acceptRun (l : Lexer) (valid : Bytes) : Lexer :=
  (acceptRunLoop valid (l.input.length - l.pos + 1) l).backup

/-- The Go slice expression `input[i:j]`; `none` is the run-time panic. -/
def slice (l : Lexer) (i j : Nat) : Option Bytes :=
  if i ≤ j ∧ j ≤ l.input.length then some ((l.input.drop i).take (j - i)) else none

/-- /repo/token/lexer.go:87-91 `emit`, followed by returning the state `st`. -/
def emit (l : Lexer) (t : Typ) (st : Option St) : Step :=
  match l.slice l.start l.pos with
  | none => .panic
  | some v => .go { l with start := l.pos } (some ⟨t, v, l.start⟩) st

/-- /repo/token/lexer.go:141-145 `errorf`. -/
def errorf (l : Lexer) (msg : Bytes) : Step :=
  .go l (some ⟨.error, msg, l.start⟩) none

end Lexer

open Lexer

/-- /repo/token/lexer.go:149-177 `lexStart`. -/
def lexStart (l : Lexer) : Step :=
  let (r, l1) := l.next
  if r == 43 then l1.emit .dataElementSeparator (some .start)
  else if r == 39 then l1.emit .segmentEndMarker (some .start)
  else if r == 58 then l1.emit .groupDataElementSeparator (some .start)
  else if r == 64 then .go l1.backup none (some .binary)
  else if r == 0 then l1.emit .eof none
  else if r == 48 then .go l1.backup none (some .digit)
  else if 49 ≤ r ∧ r ≤ 57 then .go l1.backup none (some .number)
  else .go l1.backup none (some .alnum)

/-- /repo/token/lexer.go:180-202, the loop of `lexAlphaNumeric`, with fuel;
running out of fuel is reported as a panic and shown impossible. -/
def lexAlnumLoop : Nat → Bool → Lexer → Step
  | 0, _, _ => .panic
  | n + 1, text, l =>
    let (r, l1) := l.next
    if r == 63 then
      let (p, l2) := l1.peek
      if isSyntaxSymbol p then lexAlnumLoop n text l2.next.2
      else l2.errorf b!"Unexpected escape character"
    else if isDelimiter r then
      if text then l1.backup.emit .text (some .start)
      else l1.backup.emit .alphaNumeric (some .start)
    else if r == 0 then l1.errorf b!"Unexpected end of input"
    else if r == 10 || r == 13 then lexAlnumLoop n true l1
    else lexAlnumLoop n text l1

/-- /repo/token/lexer.go:179-203 `lexAlphaNumeric`. -/
def lexAlphaNumeric (l : Lexer) : Step :=
  lexAlnumLoop (l.input.length - l.pos + 1) false l

/-- Value of a digit string, most significant digit first. -/
def decVal (bs : Bytes) : Nat := bs.foldl (fun n d => n * 10 + (d.toNat - 48)) 0

/-- /repo/token/lexer.go:205-232 `lexBinaryData`.  `strconv.Atoi` on a string of
digits fails exactly above the largest int; `l.pos += length` wraps to a negative
position when it exceeds the largest int, and the following index expression in
`next` panics. -/
def lexBinaryData (l : Lexer) : Step :=
  let l1 := (l.accept [64]).2
  let l2 := l1.acceptRun digits
  if l2.pos = l1.pos then l2.errorf b!"Binary length can't be empty"
  else
    match l2.slice l1.pos l2.pos with
    | none => .panic
    | some lengthBytes =>
      if decVal lengthBytes ≥ 2 ^ 63 then
        l2.errorf b!"Binary length must contain of digits only"
      else
        let (found, l3) := l2.accept [64]
        if !found then l3.errorf b!"Binary length must contain of digits only"
        else if l3.pos + decVal lengthBytes ≥ 2 ^ 63 then .panic
        else
          let l4 := { l3 with pos := l3.pos + decVal lengthBytes }
          let (p, l5) := l4.peek
          if isDelimiter p then l5.emit .binaryData (some .start)
          else if p == 0 then l5.errorf b!"Unexpected end of input"
          else l5.errorf b!"Expected syntax symbol after binary data"

/-- /repo/token/lexer.go:234-260 `lexDigit`. -/
def lexDigit (l : Lexer) : Step :=
  let l1 := (l.accept [48]).2
  let (r, l2) := l1.peek
  if isDelimiter r then l2.emit .numeric (some .start)
  else
    let (comma, l3) := l2.accept [44]
    if comma then
      let l4 := l3.acceptRun digits
      let (p, l5) := l4.peek
      if isDelimiter p then l5.emit .float (some .start)
      else .go l5 none (some .alnum)
    else
      let l4 := l3.acceptRun digits
      let (p, l5) := l4.peek
      if p == 44 then l5.errorf b!"Malformed float"
      else
        let (q, l6) := l5.peek
        if isDelimiter q then l6.emit .digit (some .start)
        else .go l6 none (some .alnum)

/-- /repo/token/lexer.go:262-280 `lexNumber`. -/
def lexNumber (l : Lexer) : Step :=
  let l1 := l.acceptRun digits
  let (comma, l2) := l1.accept [44]
  if comma then
    let l3 := l2.acceptRun digits
    let (p, l4) := l3.peek
    if isDelimiter p then l4.emit .float (some .start)
    else .go l4 none (some .alnum)
  else
    let (p, l3) := l2.peek
    if isDelimiter p then l3.emit .numeric (some .start)
    else .go l3 none (some .alnum)

/-- Calling the current state function. -/
def step (st : St) (l : Lexer) : Step :=
  match st with
  | .start => lexStart l
  | .alnum => lexAlphaNumeric l
  | .binary => lexBinaryData l
  | .digit => lexDigit l
  | .number => lexNumber l

/-! ## The driver: `Next`, `HasNext` and the buffered channel -/

/-- /repo/token/lexer.go:33-40: the scanner, the state function and the channel
buffer. -/
structure LState where
  lx : Lexer
  st : Option St
  chan : List Token
  deriving DecidableEq, Repr

/-- /repo/token/lexer.go:22-30 `NewLexer`. -/
def newLexer (input : Bytes) : LState := ⟨⟨input, 0, 0⟩, some .start, []⟩

/-- /repo/token/lexer.go:82-84 `HasNext`. -/
def LState.hasNext (s : LState) : Bool := s.st.isSome

/-- Result of `Next`. `blocked`: the goroutine waits for ever on a send to a
full channel (capacity 2, lexer.go:27). `timeout`: the model's fuel ran out. -/
inductive NextRes where
  | tok (t : Token) (s : LState)
  | panic
  | blocked
  | timeout
  deriving DecidableEq, Repr

/-- /repo/token/lexer.go:63-79 `Next`, with fuel for its `for` loop. -/
def LState.next : Nat → LState → NextRes
  | 0, _ => .timeout
  | n + 1, s =>
    match s.chan with
    | t :: ts => .tok t { s with chan := ts }
    | [] =>
      match s.st with
      | none => .panic
      | some st =>
        match step st s.lx with
        | .panic => .panic
        | .go l none st' => LState.next n ⟨l, st', s.chan⟩
        | .go l (some t) st' =>
          if s.chan.length < 2 then LState.next n ⟨l, st', s.chan ++ [t]⟩
          else .blocked

/-- Result of draining a lexer: the tokens delivered and how it ended. -/
inductive Drain where
  | done (ts : List Token)
  | panic (ts : List Token)
  | blocked (ts : List Token)
  | timeout (ts : List Token)
  deriving DecidableEq, Repr

/-- Prepend a delivered token. -/
def Drain.cons (t : Token) : Drain → Drain
  | .done ts => .done (t :: ts)
  | .panic ts => .panic (t :: ts)
  | .blocked ts => .blocked (t :: ts)
  | .timeout ts => .timeout (t :: ts)

/-- The loop `for lexer.HasNext() { tok := lexer.Next(); ... }` all clients of
the lexer run, e.g. /repo/message/segment_extractor.go:29-41, collecting every
token.  `n` bounds the number of `Next` calls; one `Next` call gets fuel 5, as it
runs at most three state functions and one receive. -/
def LState.drain : Nat → LState → Drain
  | 0, s => if s.hasNext then .timeout [] else .done []
  | n + 1, s =>
    if s.hasNext then
      match s.next 5 with
      | .tok t s' => (LState.drain n s').cons t
      | .panic => .panic []
      | .blocked => .blocked []
      | .timeout => .timeout []
    else .done []

/-- Draining a fresh lexer over `input`. -/
def lex (input : Bytes) : Drain := (newLexer input).drain (input.length + 1)

end Verif.Token

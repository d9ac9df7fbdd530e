import Verif.Swift.Extract
import Verif.GoLib
import Verif.Time
import Verif.Element.Model

/-
Model of swift/mt940.go, swift/mt940_unmarshaler.go, swift/element.go and swift/unmarshal.go.
-/

namespace Verif.Swift

open GoLib Charset
open Time (Civil)
open Element (replaceFirst)

/-- What the code takes from Go's libraries and from the clock: floating point numbers with
`strconv.ParseFloat`, `unicode.IsDigit` above Latin-1, and `time.Now().Year()`, which is taken
to be the same throughout one call. -/
structure Lib where
  F : Type
  zero : F
  neg : F → F
  parseFloat : Bytes → Option F
  digit : Nat → Bool
  year : Int

/-- Go's zero `time.Time`. -/
def zeroTime : Civil := ⟨1, 1, 1, 0, 0, 0, 0⟩

/-- `strings.Index` / `bytes.Index`. -/
def indexOf (p : Bytes) : Bytes → Option Nat
  | [] => if p = [] then some 0 else none
  | c :: r => if p.isPrefixOf (c :: r) then some 0 else (indexOf p r).map (· + 1)

/-- `time.Date(y, m, d, 0, 0, 0, 0, time.UTC)` for months 1 to 12 and days 1 to 31: days after
the end of the month go to the next one. -/
def date (y : Int) (m d : Nat) : Civil :=
  if d ≤ Time.daysIn m y then ⟨y, m, d, 0, 0, 0, 0⟩
  else if m = 12 then ⟨y + 1, 1, d - 31, 0, 0, 0, 0⟩
  else ⟨y, m + 1, d - Time.daysIn m y, 0, 0, 0, 0⟩

/-- /repo/swift/mt940.go:311-331 `parseDate`.  `Truncate(24 * time.Hour)` changes nothing,
because the parsed time is midnight in UTC. -/
def parseDate (value : Bytes) (referenceYear : Int) : Outcome Civil :=
  let offset := if value.length = 6 then 2 else 4
  let y := itoa referenceYear
  if y.length < offset then .panic
  else
    let s := y.take offset ++ value
    match Time.parse8 s with
    | some t => .ok t
    | none =>
      if [48, 50, 50, 57].isSuffixOf s then .ok (date referenceYear 2 29)
      else if [48, 50, 51, 48].isSuffixOf s then .ok (date referenceYear 2 30)
      else .err

/-! ## Tags -/

/-- /repo/swift/element.go:19-30 `AlphaNumericTag`: the identifier and the value, as bytes. -/
structure TextTag where
  id : Bytes
  value : Bytes
  deriving DecidableEq, Repr

/-- /repo/swift/element.go:33-45 `AlphaNumericTag.Unmarshal`. -/
def unmarshalTextTag (value : Bytes) : Outcome TextTag := (tagElements value).bind fun e => .ok ⟨e.1, e.2⟩

/-- /repo/swift/element.go:58-73 `NumberTag.Unmarshal`: the identifier and the number. -/
def unmarshalNumberTag (value : Bytes) : Outcome (Bytes × Int) :=
  (tagElements value).bind fun e => (Outcome.ofOption (atoi e.2)).bind fun n => .ok (e.1, n)

/-- /repo/swift/element.go:86-101 `FloatTag.Unmarshal`: the identifier and the number. -/
def unmarshalFloatTag (L : Lib) (value : Bytes) : Outcome (Bytes × L.F) :=
  (tagElements value).bind fun e => (Outcome.ofOption (L.parseFloat e.2)).bind fun a => .ok (e.1, a)

/-- /repo/swift/mt940.go:78-82 `AccountTag`. -/
structure AccountTag where
  tag : Bytes
  bankID : Bytes
  accountID : Bytes
  deriving DecidableEq, Repr

/-- /repo/swift/mt940.go:85-101 `AccountTag.Unmarshal`. -/
def unmarshalAccount (value : Bytes) : Outcome AccountTag :=
  (tagElements value).bind fun e =>
    match split 47 e.2 with
    | [b, a] => .ok ⟨e.1, b, a⟩
    | _ => .err

/-- /repo/swift/mt940.go:104-108 `StatementNumberTag`. -/
structure StatementNumberTag where
  tag : Bytes
  number : Int
  sheetNumber : Int
  deriving DecidableEq, Repr

/-- /repo/swift/mt940.go:111-142 `StatementNumberTag.Unmarshal`. -/
def unmarshalStatementNumber (value : Bytes) : Outcome StatementNumberTag :=
  (tagElements value).bind fun e =>
    if 47 ∈ e.2 then
      (Outcome.ofOption (atoi (e.2.dropWhile (fun b => b != 47)).tail)).bind fun sheet =>
        (Outcome.ofOption (atoi (e.2.takeWhile (fun b => b != 47)))).bind fun n => .ok ⟨e.1, n, sheet⟩
    else (Outcome.ofOption (atoi e.2)).bind fun n => .ok ⟨e.1, n, 0⟩

/-- /repo/swift/mt940.go:145-151 `BalanceTag`. -/
structure BalanceTag (F : Type) where
  tag : Bytes
  indicator : Bytes
  bookingDate : Civil
  currency : Bytes
  amount : F

/-- The value `&BalanceTag{}`. -/
def emptyBalance (L : Lib) : BalanceTag L.F := ⟨[], [], zeroTime, [], L.zero⟩

/-- /repo/swift/mt940.go:154-163 `BalanceTag.Balance`: the signed amount. -/
def BalanceTag.balance (L : Lib) (b : BalanceTag L.F) : L.F := if b.indicator = [68] then L.neg b.amount else b.amount

/-- /repo/swift/mt940.go:166-191 `BalanceTag.Unmarshal`. -/
def unmarshalBalance (L : Lib) (value : Bytes) : Outcome (BalanceTag L.F) :=
  (tagElements value).bind fun e =>
    let r := e.2.drop 1
    (parseDate (r.take 6) L.year).bind fun d =>
      let r' := r.drop 6
      (Outcome.ofOption (L.parseFloat (replaceFirst 44 46 (r'.drop 3)))).bind fun a =>
        .ok ⟨e.1, e.2.take 1, d, r'.take 3, a⟩

/-- /repo/swift/mt940.go:201-212 `TransactionTag`. -/
structure TransactionTag (F : Type) where
  tag : Bytes
  valutaDate : Civil
  bookingDate : Civil
  indicator : Str
  currencyKind : Str
  amount : F
  bookingKey : Bytes
  reference : Bytes
  bankReference : Bytes
  additional : Bytes

/-- A continuation byte of UTF-8 within bounds. -/
def cont (lo hi : Nat) (b : Byte) : Bool := lo ≤ b.toNat && b.toNat ≤ hi

/-- `utf8.DecodeRune` on a non-empty text: the rune and the number of its bytes.  Invalid
bytes are U+FFFD of length one. -/
def decodeRune : Bytes → Nat × Nat
  | [] => (0xFFFD, 0)
  | a :: r =>
    let c := a.toNat
    if c < 0x80 then (c, 1)
    else if 0xC2 ≤ c ∧ c ≤ 0xDF then
      match r with
      | b :: _ => if cont 0x80 0xBF b then ((c - 0xC0) * 64 + (b.toNat - 0x80), 2) else (0xFFFD, 1)
      | _ => (0xFFFD, 1)
    else if 0xE0 ≤ c ∧ c ≤ 0xEF then
      match r with
      | b :: d :: _ =>
        if cont (if c = 0xE0 then 0xA0 else 0x80) (if c = 0xED then 0x9F else 0xBF) b && cont 0x80 0xBF d then
          ((c - 0xE0) * 4096 + (b.toNat - 0x80) * 64 + (d.toNat - 0x80), 3)
        else (0xFFFD, 1)
      | _ => (0xFFFD, 1)
    else if 0xF0 ≤ c ∧ c ≤ 0xF4 then
      match r with
      | b :: d :: e :: _ =>
        if cont (if c = 0xF0 then 0x90 else 0x80) (if c = 0xF4 then 0x8F else 0xBF) b && cont 0x80 0xBF d && cont 0x80 0xBF e then
          ((c - 0xF0) * 262144 + (b.toNat - 0x80) * 4096 + (d.toNat - 0x80) * 64 + (e.toNat - 0x80), 4)
        else (0xFFFD, 1)
      | _ => (0xFFFD, 1)
    else (0xFFFD, 1)

/-- `unicode.IsDigit`. -/
def runeDigit (L : Lib) (r : Nat) : Bool := if r < 256 then 48 ≤ r && r ≤ 57 else L.digit r

/-- The loop of /repo/swift/mt940.go:248-269: the runes before the next digit, and the text
from that digit on.  `none`: the text ends before.  The first argument bounds the number of
rounds; there are at most as many as bytes. -/
def readLetters (L : Lib) : Nat → Bytes → Option (List Nat × Bytes)
  | 0, _ => none
  | _ + 1, [] => none
  | n + 1, c :: r =>
    if runeDigit L (decodeRune (c :: r)).1 then some ([], c :: r)
    else (readLetters L n ((c :: r).drop (decodeRune (c :: r)).2)).map
      (fun p => ((decodeRune (c :: r)).1 :: p.1, p.2))

/-- A Go string of runes. -/
def runes (rs : List Nat) : Str := rs.map Char.ofNat

/-- /repo/swift/mt940.go:258-266: indicator and kind of currency. -/
def indicatorOf (rs : List Nat) : Str × Str :=
  if rs.length = 3 then (runes (rs.take 2), runes (rs.drop 2))
  else if rs.length = 2 then (runes (rs.take 1), runes (rs.drop 1))
  else if rs.length = 1 then (runes rs, [])
  else ([], [])

/-- References and additional information. -/
structure References where
  reference : Bytes
  bankReference : Bytes
  additional : Bytes
  deriving DecidableEq, Repr

/-- /repo/swift/mt940.go:282-306: how the rest of a statement line is divided. -/
def references (remaining : Bytes) : Outcome References :=
  match indexOf [47, 47] remaining, indexOf [13, 10, 47] remaining with
  | some ds, some ai =>
    if ds < ai then
      if ai < ds + 2 then .panic
      else .ok ⟨remaining.take ds, (remaining.take ai).drop (ds + 2), remaining.drop (ai + 3)⟩
    else
      if ds < ai + 3 then .panic
      else .ok ⟨remaining.take ds, (remaining.take ds).drop (ai + 3), remaining.drop (ds + 2)⟩
  | some ds, none => .ok ⟨remaining.take ds, remaining.drop (ds + 2), []⟩
  | none, some ai => .ok ⟨remaining.take ai, [], remaining.drop (ai + 3)⟩
  | none, none => .ok ⟨remaining, [], []⟩

/-- `t.AddDate(1, 0, 0)` for a date. -/
def nextYear (t : Civil) : Civil := date (t.year + 1) t.month t.day

/-- /repo/swift/mt940.go:235-247: the booking date, if there is one, and the text after it. -/
def bookingDate (L : Lib) (valuta : Civil) (r : Bytes) : Outcome (Civil × Bytes) :=
  if r = [] then .err
  else if runeDigit L (decodeRune r).1 then
    (parseDate (r.take 4) valuta.year).bind fun d =>
      .ok (if 1 < ((valuta.month : Int) - d.month).natAbs then nextYear d else d, r.drop 4)
  else .ok (zeroTime, r.drop (decodeRune r).2)

/-- /repo/swift/mt940.go:270-280: the amount, and the text after the letter `N`. -/
def amountOf (L : Lib) (r : Bytes) : Outcome (L.F × Bytes) :=
  match r.dropWhile (fun b => b != 78) with
  | [] => .err
  | _ :: rest => (Outcome.ofOption (L.parseFloat (replaceFirst 44 46 (r.takeWhile (fun b => b != 78))))).bind fun a => .ok (a, rest)

/-- /repo/swift/mt940.go:215-309 `TransactionTag.Unmarshal`. -/
def unmarshalTransaction (L : Lib) (value : Bytes) : Outcome (TransactionTag L.F) :=
  (tagElements value).bind fun e =>
    (parseDate (e.2.take 6) L.year).bind fun valuta =>
      (bookingDate L valuta (e.2.drop 6)).bind fun b =>
        (Outcome.ofOption (readLetters L b.2.length b.2)).bind fun l =>
          (amountOf L l.2).bind fun a =>
            (references (a.2.drop 3)).bind fun refs =>
              .ok ⟨e.1, valuta, b.1, (indicatorOf l.1).1, (indicatorOf l.1).2, a.1, a.2.take 3, refs.reference,
                refs.bankReference, refs.additional⟩

/-! ## Descriptions -/

/-- /repo/swift/element.go:109-120 `CustomFieldTag`. -/
structure CustomField where
  tag : Str := []
  transactionID : Int := 0
  bookingText : Str := []
  primanoten : Str := []
  purpose : List Str := []
  bankID : Str := []
  accountID : Str := []
  name : Str := []
  messageKey : Int := 0
  purpose2 : List Str := []
  deriving DecidableEq, Repr

/-- /repo/swift/element.go:122-144 `customFieldTagFieldKeys`. -/
def customKeys : List Bytes :=
  [b!"?00", b!"?10", b!"?20", b!"?21", b!"?22", b!"?23", b!"?24", b!"?25", b!"?26", b!"?27", b!"?28", b!"?29",
   b!"?30", b!"?31", b!"?32", b!"?33", b!"?34", b!"?60", b!"?61", b!"?62", b!"?63"]

/-- `bytes.Replace(s, "\r\n", "", -1)`. -/
def removeCRLF : Bytes → Bytes
  | 13 :: 10 :: r => removeCRLF r
  | c :: r => c :: removeCRLF r
  | [] => []

/-- /repo/swift/element.go:184-209: the switch over the key of a field. -/
def setField (c : CustomField) (key : Bytes) (v : Bytes) : Outcome CustomField :=
  let s := toUTF8 v
  if b!"?00".isPrefixOf key then .ok { c with bookingText := s }
  else if b!"?10".isPrefixOf key then .ok { c with primanoten := s }
  else if b!"?2".isPrefixOf key then .ok { c with purpose := c.purpose ++ [s] }
  else if b!"?30".isPrefixOf key then .ok { c with bankID := s }
  else if b!"?31".isPrefixOf key then .ok { c with accountID := s }
  else if b!"?32".isPrefixOf key then .ok { c with name := s }
  else if b!"?33".isPrefixOf key then .ok { c with name := c.name ++ ' ' :: s }
  else if b!"?34".isPrefixOf key then (Outcome.ofOption (atoi v)).bind fun n => .ok { c with messageKey := n }
  else if b!"?6".isPrefixOf key then .ok { c with purpose2 := c.purpose2 ++ [s] }
  else .ok c

/-- /repo/swift/element.go:175-182: where the text of a field ends. -/
def nextIndex (m : Bytes) : List (Bytes × Nat) → Nat
  | [] => m.length
  | f :: _ => f.2

/-- The loop of /repo/swift/element.go:174-210 over the keys found, with their positions. -/
def fieldLoop (m : Bytes) : List (Bytes × Nat) → CustomField → Outcome CustomField
  | [], c => .ok c
  | (k, i) :: rest, c =>
    if nextIndex m rest < i + 3 then .panic
    else (setField c k ((m.take (nextIndex m rest)).drop (i + 3))).bind fun c' => fieldLoop m rest c'

/-- /repo/swift/element.go:162-167: the keys found, with their first positions. -/
def foundKeys (m : Bytes) : List (Bytes × Nat) := customKeys.filterMap (fun k => (indexOf k m).map (fun i => (k, i)))

/-- /repo/swift/element.go:147-212 `CustomFieldTag.Unmarshal` with /repo/swift/tag_extractor.go:16-28
`extractRawTag`.  `spare` are the bytes that follow `value` in its backing array: slicing
`tag.Value[:3]` may reach into them, `tag.Value[3:]` may not. -/
def unmarshalCustom (spare : Bytes) (value : Bytes) : Outcome CustomField :=
  (tagElements value).bind fun e =>
    if (e.2 ++ spare).length < 3 then .panic
    else (Outcome.ofOption (atoi ((e.2 ++ spare).take 3))).bind fun id =>
      if e.2.length < 3 then .panic
      else
        let m := removeCRLF (e.2.drop 3)
        fieldLoop m (foundKeys m) { tag := toUTF8 e.1, transactionID := id }

/-! ## Messages -/

/-- /repo/swift/mt940.go:195-198 `TransactionSequence`. -/
structure Sequence (F : Type) where
  transaction : TransactionTag F
  description : Option CustomField

/-- /repo/swift/mt940.go:17-28 `MT940`. -/
structure MT940 (F : Type) where
  jobReference : Option TextTag := none
  reference : Option TextTag := none
  account : Option AccountTag := none
  statementNumber : Option StatementNumberTag := none
  startingBalance : Option (BalanceTag F) := none
  transactions : List (Sequence F) := []
  closingBalance : Option (BalanceTag F) := none
  currentValutaBalance : Option (BalanceTag F) := none
  futureValutaBalance : Option (BalanceTag F) := none
  customField : Option CustomField := none

/-- What `MT940.Unmarshal` leaves behind: the message as far as it was read, and whether there
was an error; or a panic. -/
inductive Read (F : Type) where
  | done (m : MT940 F) (ok : Bool)
  | panic

/-- The kinds of tags that `MT940.Unmarshal` distinguishes. -/
inductive Kinds where
  | job | reference | account | number | starting | closing | current | future | transaction | description | unknown
  deriving DecidableEq, Repr

/-- The switch of /repo/swift/mt940_unmarshaler.go:23-104. -/
def kindOf (tag : Bytes) : Kinds :=
  if b!":20:".isPrefixOf tag then .job
  else if b!":21:".isPrefixOf tag then .reference
  else if b!":25:".isPrefixOf tag then .account
  else if b!":28C:".isPrefixOf tag then .number
  else if b!":60".isPrefixOf tag then .starting
  else if b!":62".isPrefixOf tag then .closing
  else if b!":64:".isPrefixOf tag then .current
  else if b!":65:".isPrefixOf tag then .future
  else if b!":61:".isPrefixOf tag then .transaction
  else if b!":86:".isPrefixOf tag then .description
  else .unknown

/-- The spare capacity of a tag that `tagExtractor.Extract` made and that is at most seven
bytes long: the identifier alone gets a backing array of eight bytes, filled with zeros.
(Only used when less than three bytes follow the identifier `:86:`.) -/
def spareOf (tag : Bytes) : Bytes := List.replicate (8 - tag.length) 0

/-- Description of the last of the transactions. -/
def lastDescription {F : Type} (txs : List (Sequence F)) : Option (Option CustomField) := txs.getLast?.map (·.description)

/-- /repo/swift/mt940_unmarshaler.go:97: set the description of the last transaction. -/
def describeLast {F : Type} (txs : List (Sequence F)) (d : CustomField) : List (Sequence F) :=
  match txs with
  | [] => []
  | [t] => [{ t with description := some d }]
  | t :: ts => t :: describeLast ts d

/-- Outcome of one tag: the message and whether a balance is open, an error with the message
as it is then, or a panic. -/
inductive TagRes (F : Type) where
  | next (m : MT940 F) (balanceTagOpen : Bool)
  | fail (m : MT940 F)
  | panic

/-- Store a parsed tag; after an error the field points to an empty value.  Simplification:
what a failing `Unmarshal` stored before it failed is left out. -/
def store {F α : Type} (r : Outcome α) (empty : MT940 F) (set : α → MT940 F) (o : Bool) : TagRes F :=
  match r with
  | .ok a => .next (set a) o
  | .err => .fail empty
  | .panic => .panic

/-- /repo/swift/mt940_unmarshaler.go:21-105: the body of the loop. -/
def readTag (L : Lib) (m : MT940 L.F) (o : Bool) (tag : Bytes) : TagRes L.F :=
  match kindOf tag with
  | .job =>
    store (unmarshalTextTag tag) { m with jobReference := some ⟨[], []⟩ } (fun a => { m with jobReference := some a }) o
  | .account => store (unmarshalAccount tag) { m with account := some ⟨[], [], []⟩ } (fun a => { m with account := some a }) o
  | .number =>
    store (unmarshalStatementNumber tag) { m with statementNumber := some ⟨[], 0, 0⟩ }
      (fun a => { m with statementNumber := some a }) o
  | .starting =>
    store (unmarshalBalance L tag) { m with startingBalance := some (emptyBalance L) }
      (fun a => { m with startingBalance := some a }) true
  | .closing =>
    store (unmarshalBalance L tag) { m with closingBalance := some (emptyBalance L) }
      (fun a => { m with closingBalance := some a }) false
  | .current =>
    store (unmarshalBalance L tag) { m with currentValutaBalance := some (emptyBalance L) }
      (fun a => { m with currentValutaBalance := some a }) o
  | .future =>
    store (unmarshalBalance L tag) { m with futureValutaBalance := some (emptyBalance L) }
      (fun a => { m with futureValutaBalance := some a }) o
  | .transaction =>
    store (unmarshalTransaction L tag) m (fun t => { m with transactions := m.transactions ++ [⟨t, none⟩] }) o
  | .description =>
    match unmarshalCustom (spareOf tag) tag with
    | .panic => .panic
    | .err => .fail m
    | .ok c =>
      if o then
        match lastDescription m.transactions with
        | none => .fail m
        | some (some _) => .fail m
        | some none => .next { m with transactions := describeLast m.transactions c } o
      else .next { m with customField := some c } o
  | .reference =>
    store (unmarshalTextTag tag) { m with reference := some ⟨[], []⟩ } (fun a => { m with reference := some a }) o
  | .unknown => .fail m

/-- The loop of /repo/swift/mt940_unmarshaler.go:21-106. -/
def readTags (L : Lib) : List Bytes → MT940 L.F → Bool → Read L.F
  | [], m, _ => .done m true
  | t :: ts, m, o =>
    match readTag L m o t with
    | .next m' o' => readTags L ts m' o'
    | .fail m' => .done m' false
    | .panic => .panic

/-- /repo/swift/mt940_unmarshaler.go:11-109 `MT940.Unmarshal` on an empty message. -/
def unmarshalMessage (L : Lib) (raw : Bytes) : Read L.F :=
  match extractTags raw with
  | .ok [] => .done {} false
  | .ok tags => readTags L tags {} false
  | .err => .done {} false
  | .panic => .panic

/-- The parts of /repo/domain/account_transaction.go `AccountTransaction` that are set from a
statement. -/
structure Transaction (F : Type) where
  bankCode : Bytes
  accountNumber : Bytes
  amount : F
  currency : Bytes
  valutaDate : Civil
  bookingDate : Civil
  before : F
  beforeDate : Civil
  after : F
  afterCurrency : Bytes
  afterDate : Civil
  bookingText : Str
  otherBank : Str
  otherAccount : Str
  name : Str
  purpose : Str
  purpose2 : Str
  transactionID : Int

/-- `strings.Join(lines, " ")`. -/
def joinLines : List Str → Str
  | [] => []
  | [l] => l
  | l :: ls => l ++ ' ' :: joinLines ls

/-- /repo/swift/mt940.go:35-72: one transaction; without a description its texts are empty. -/
def transactionOf (L : Lib) (a : AccountTag) (s c : BalanceTag L.F) (q : Sequence L.F) : Transaction L.F where
  bankCode := a.bankID
  accountNumber := a.accountID
  amount := if q.transaction.indicator = ['D'] then L.neg q.transaction.amount else q.transaction.amount
  currency := s.currency
  valutaDate := q.transaction.valutaDate
  bookingDate := q.transaction.bookingDate
  before := s.amount
  beforeDate := s.bookingDate
  after := c.amount
  afterCurrency := c.currency
  afterDate := c.bookingDate
  bookingText := (q.description.getD {}).bookingText
  otherBank := (q.description.getD {}).bankID
  otherAccount := (q.description.getD {}).accountID
  name := (q.description.getD {}).name
  purpose := joinLines (q.description.getD {}).purpose
  purpose2 := joinLines (q.description.getD {}).purpose2
  transactionID := (q.description.getD {}).transactionID

/-- /repo/swift/mt940.go:31-75 `MT940.AccountTransactions`: nil pointers are dereferenced. -/
def accountTransactions (L : Lib) (m : MT940 L.F) : Outcome (List (Transaction L.F)) :=
  match m.account with
  | none => .panic
  | some a =>
    if m.transactions.isEmpty then .ok []
    else
      match m.startingBalance, m.closingBalance with
      | some s, some c => .ok (m.transactions.map (transactionOf L a s c))
      | _, _ => .panic

/-- The loop of /repo/swift/unmarshal.go:86-93: `failed` says that `errors` is not empty. -/
def statementLoop (L : Lib) : List Bytes → List (Transaction L.F) → Bool → Outcome (List (Transaction L.F))
  | [], acc, failed => if failed then .err else .ok acc
  | m :: ms, acc, failed =>
    match unmarshalMessage L m with
    | .panic => .panic
    | .done mt ok =>
      match accountTransactions L mt with
      | .ok txs => statementLoop L ms (acc ++ txs) (failed || !ok)
      | _ => .panic

/-- /repo/swift/unmarshal.go:78-98 `UnmarshalMT940`. -/
def unmarshalMT940 (L : Lib) (value : Bytes) : Outcome (List (Transaction L.F)) :=
  match extractMessages value with
  | .ok ms => statementLoop L ms [] false
  | .err => .err
  | .panic => .panic

end Verif.Swift

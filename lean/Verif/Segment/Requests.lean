import Verif.Segment.Model
import Verif.Element.Groups
import Verif.Domain.Model

/-
Model of the requests of segment/account_balance.go, account_transaction.go,
status_protocol.go and tan.go and of the builders that choose their versions
(segment/hbci_version.go).
-/

namespace Verif.Segment

open GoLib Element Time Domain

/-! ## Requests -/

/-- /repo/segment/account_balance.go:60-66 `AccountBalanceRequestSegmentV5` and its
copies for versions 6 to 8 (:95-101, :130-136, :165-171), which differ in the version
and in the type of the account element only. -/
structure BalanceRequest where
  version : Int
  account : DE
  allAccounts : Bool
  mark : Option Str

/-- /repo/segment/account_balance.go:51-58 and 86-93 `NewAccountBalanceRequestV5`, `V6`. -/
def newBalanceRequest (version : Int) (account : AccountConnection) (allAccounts : Bool) : BalanceRequest :=
  ⟨version, accountConnectionDE account, allAccounts, none⟩

/-- /repo/segment/account_balance.go:121-128 and 156-163 `NewAccountBalanceRequestV7`,
`V8`. -/
def newSepaBalanceRequest (version : Int) (account : InternationalConnection) (allAccounts : Bool) : BalanceRequest :=
  ⟨version, internationalDE account, allAccounts, none⟩

/-- /repo/segment/account_balance.go:82-84 `SetContinuationMark` (and :117, :152, :187). -/
def BalanceRequest.setContinuationMark (r : BalanceRequest) (mark : Str) : BalanceRequest := { r with mark := some mark }

/-- /repo/segment/account_balance.go:68-80: the segment.  `MaxEntries` is never set. -/
def BalanceRequest.seg (r : BalanceRequest) : Seg :=
  newSegment 1 c!"HKSAL" r.version
    [some r.account, some (.boolean r.allAccounts), none, r.mark.map fun m => .alnum m 35]

/-- /repo/segment/account_transaction.go:66-74 `AccountTransactionRequestV5` and its
copies for versions 6 and 7 (:122-130, :178-186). -/
structure TransactionRequest where
  version : Int
  account : DE
  allAccounts : Bool
  start : Option Civil
  stop : Option Civil
  mark : Option Str

/-- /repo/segment/account_transaction.go:53-64 and 109-120. -/
def newTransactionRequest (version : Int) (account : AccountConnection) (allAccounts : Bool) : TransactionRequest :=
  ⟨version, accountConnectionDE account, allAccounts, none, none, none⟩

/-- /repo/segment/account_transaction.go:165-176. -/
def newSepaTransactionRequest (version : Int) (account : InternationalConnection) (allAccounts : Bool) :
    TransactionRequest :=
  ⟨version, internationalDE account, allAccounts, none, none, none⟩

/-- /repo/segment/account_transaction.go:76-78 `SetContinuationReference`. -/
def TransactionRequest.setContinuationReference (r : TransactionRequest) (mark : Str) : TransactionRequest :=
  { r with mark := some mark }

/-- `t.AddDate(0, -1, 0)`: the same day of the month before; days beyond its end run
into the next month. -/
def monthBefore (t : Civil) : Civil :=
  let (y, m) := if t.month ≤ 1 then (t.year - 1, 12) else (t.year, t.month - 1)
  if daysIn m y < t.day then { t with day := t.day - daysIn m y } else { t with year := y, month := m }

/-- /repo/segment/account_transaction.go:80-91 `SetTransactionRange` (and :136-147,
:192-203); `now` is what `time.Now()` returns. -/
def TransactionRequest.setTransactionRange (r : TransactionRequest) (now : Civil) (tf : Timeframe) :
    TransactionRequest :=
  let to_ := if isZero tf.endDate then newShortDate now else tf.endDate
  let from_ := if isZero tf.startDate then newShortDate (monthBefore now) else tf.startDate
  { r with start := some from_, stop := some to_ }

/-- /repo/segment/account_transaction.go:93-107 the segment (and :149-163, :205-219).
The maximal length of the reference is its own length. -/
def TransactionRequest.seg (r : TransactionRequest) : Seg :=
  newSegment 1 c!"HKKAZ" r.version
    [some r.account, some (.boolean r.allAccounts), r.start.map .date, r.stop.map .date, none,
      r.mark.map fun m => .alnum m (strLen m)]

/-- /repo/segment/status_protocol.go:31-42 and 66-77 `NewStatusProtocolRequestV3`, `V4`
with `elements()` (:57-64, :92-99). -/
def newStatusRequest (version : Int) (start stop : Civil) (maxEntries : Int) (mark : Str) : Seg :=
  newSegment 1 c!"HKPRO" version
    [some (.date start), some (.date stop), some (.number maxEntries 4), if mark = [] then none else some (.alnum mark 35)]

/-- /repo/segment/tan.go:46-56 `NewTanProcess4RequestSegmentV1` with `elements()`
(:73-82). -/
def tanRequestV1 (_ : Str) : Seg :=
  newSegment 1 c!"HKTAN" 1 [some (.alnum c!"4" 1), none, none, none, none, none]

/-- /repo/segment/tan.go:84-95 `NewTanProcess4RequestSegmentV6` with `elements()`
(:113-123). -/
def tanRequestV6 (referencing : Str) : Seg :=
  newSegment 1 c!"HKTAN" 6 [some (.alnum c!"4" 1), some (.alnum referencing 6), none, none, none, none, none]

/-! ## Choosing a version -/

/-- `sort.Sort(sort.Reverse(sort.IntSlice(versions)))`: descending.  Simplification: the
caller's slice is sorted in place, which no caller notices. -/
def descending (versions : List Int) : List Int := versions.mergeSort fun a b => decide (b ≤ a)

/-- The common loop of the builders: the first version for which there is a
constructor. -/
def firstImplemented {α : Type} (table : Int → Option α) (versions : List Int) : Outcome α :=
  .ofOption ((descending versions).findSome? table)

/-- /repo/segment/account_balance.go:12-15 `accountBalanceRequests`. -/
def balanceTable (v : Int) : Option (AccountConnection → Bool → BalanceRequest) :=
  match v with
  | 5 => some (newBalanceRequest 5)
  | 6 => some (newBalanceRequest 6)
  | _ => none

/-- /repo/segment/account_balance.go:23-32 `AccountBalanceRequestBuilder`. -/
def balanceBuilder : List Int → Outcome (AccountConnection → Bool → BalanceRequest) :=
  firstImplemented balanceTable

/-- /repo/segment/account_balance.go:17-20 `sepaAccountBalanceRequests`. -/
def sepaBalanceTable (v : Int) : Option (InternationalConnection → Bool → BalanceRequest) :=
  match v with
  | 7 => some (newSepaBalanceRequest 7)
  | 8 => some (newSepaBalanceRequest 8)
  | _ => none

/-- /repo/segment/account_balance.go:35-44 `SepaAccountBalanceRequestBuilder`. -/
def sepaBalanceBuilder : List Int → Outcome (InternationalConnection → Bool → BalanceRequest) :=
  firstImplemented sepaBalanceTable

/-- /repo/segment/account_transaction.go:13-16 `accountTransactionRequests`. -/
def transactionTable (v : Int) : Option (AccountConnection → Bool → TransactionRequest) :=
  match v with
  | 6 => some (newTransactionRequest 6)
  | 5 => some (newTransactionRequest 5)
  | _ => none

/-- /repo/segment/account_transaction.go:18-27 `AccountTransactionRequestBuilder`. -/
def transactionBuilder : List Int → Outcome (AccountConnection → Bool → TransactionRequest) :=
  firstImplemented transactionTable

/-- /repo/segment/account_transaction.go:32-38, the body of the loop: versions
above 6 are skipped before 7 is looked for. -/
def sepaTransactionTable (v : Int) : Option (InternationalConnection → Bool → TransactionRequest) :=
  if v > 6 then none
  else
    match v with
    | 7 => some (newSepaTransactionRequest 7)
    | _ => none

/-- /repo/segment/account_transaction.go:29-41 `SepaAccountTransactionRequestBuilder`. -/
def sepaTransactionBuilder : List Int → Outcome (InternationalConnection → Bool → TransactionRequest) :=
  firstImplemented sepaTransactionTable

/-- /repo/segment/status_protocol.go:15-22, the switch. -/
def statusTable (v : Int) : Option (Civil → Civil → Int → Str → Seg) :=
  match v with
  | 4 => some (newStatusRequest 3)
  | 3 => some (newStatusRequest 4)
  | _ => none

/-- /repo/segment/status_protocol.go:12-25 `StatusProtocolRequestBuilder`. -/
def statusBuilder : List Int → Outcome (Civil → Civil → Int → Str → Seg) :=
  firstImplemented statusTable

/-- /repo/segment/tan.go:12-15 `tanProcess4RequestSegmentConstructors`. -/
def tanTable (v : Int) : Option (Str → Seg) :=
  match v with
  | 6 => some tanRequestV6
  | 1 => some tanRequestV1
  | _ => none

/-- /repo/segment/tan.go:17-26 `TanProcess4RequestBuilder`. -/
def tanBuilder : List Int → Outcome (Str → Seg) :=
  firstImplemented tanTable

/-- /repo/segment/hbci_version.go:58-60 `builder`: a map from segment IDs to versions. -/
abbrev Builder := Str → Option (List Int)

/-- One step of the loop of /repo/segment/hbci_version.go:52-54. -/
def Builder.add (b : Builder) (s : Str × Int) : Builder :=
  fun id => if id = s.1 then some ((b s.1).getD [] ++ [s.2]) else b id

/-- /repo/segment/hbci_version.go:50-56 `NewBuilder`. -/
def newBuilder (supported : List (Str × Int)) : Builder := supported.foldl Builder.add fun _ => none

/-- The pattern of the methods of /repo/segment/hbci_version.go:62-116: look the ID up,
choose a constructor. -/
def Builder.choose {α : Type} (b : Builder) (id : Str) (build : List Int → Outcome α) : Outcome α :=
  match b id with
  | none => .err
  | some versions => build versions

/-- /repo/segment/hbci_version.go:62-72. -/
def Builder.balance (b : Builder) (account : AccountConnection) (all : Bool) : Outcome BalanceRequest :=
  (b.choose c!"HISALS" balanceBuilder).map' fun f => f account all

/-- /repo/segment/hbci_version.go:73-83. -/
def Builder.sepaBalance (b : Builder) (account : InternationalConnection) (all : Bool) : Outcome BalanceRequest :=
  (b.choose c!"HISALS" sepaBalanceBuilder).map' fun f => f account all

/-- /repo/segment/hbci_version.go:84-94. -/
def Builder.transactions (b : Builder) (account : AccountConnection) (all : Bool) : Outcome TransactionRequest :=
  (b.choose c!"HIKAZS" transactionBuilder).map' fun f => f account all

/-- /repo/segment/hbci_version.go:95-105. -/
def Builder.sepaTransactions (b : Builder) (account : InternationalConnection) (all : Bool) :
    Outcome TransactionRequest :=
  (b.choose c!"HIKAZS" sepaTransactionBuilder).map' fun f => f account all

/-- /repo/segment/hbci_version.go:106-116. -/
def Builder.status (b : Builder) (start stop : Civil) (maxEntries : Int) (mark : Str) : Outcome Seg :=
  (b.choose c!"HIPRO" statusBuilder).map' fun f => f start stop maxEntries mark

end Verif.Segment

import Verif.Dialog.Model
import Verif.Swift.Model
import Verif.Bankinfo.Model

/-
Model of client/client.go and of MergeMT940Messages (swift/unmarshal.go).
-/

namespace Verif.Client

open GoLib Element Segment Message Domain Transport Dialog

/-! ## Pages of a statement -/

/-- /repo/swift/unmarshal.go:19-22 `MT940Messages`. -/
structure Page where
  data : Bytes
  stamp : Int
  deriving DecidableEq, Repr

/-- One step of the insertion sort of Go's package sort: an element moves left past the
greater ones. -/
def insert (p : Page) : List Page → List Page
  | [] => [p]
  | q :: qs => if p.stamp ≤ q.stamp then p :: q :: qs else q :: insert p qs

/-- What `sort.Sort` of Go's standard library does to pages compared by
/repo/swift/unmarshal.go:59-61 `Less`: the result is ordered, nothing is lost, and at most
twelve elements are sorted by insertion, which keeps the order of equal ones.  Longer lists
are sorted by an algorithm of which only the first two facts are used. -/
structure Sorter where
  sort : List Page → List Page
  perm : ∀ l, (sort l).Perm l
  ordered : ∀ l, (sort l).Pairwise fun p q => p.stamp ≤ q.stamp
  short : ∀ l, l.length ≤ 12 → sort l = l.foldr insert []

/-- /repo/swift/unmarshal.go:24-35 `MergeMT940Messages`; `now` is the clock after sorting.
Simplification: no page is nil, which the client never passes. -/
def merge (sorter : Sorter) (now : Int) (pages : List Page) : Page := ⟨(sorter.sort pages).flatMap (·.data), now⟩

/-! ## The client -/

/-- What the client makes of decoded segments: a type assertion and a method.  `balance`
and `sepaBalance` are the results for one segment. -/
structure ClientViews (σ β γ δ : Type) where
  /-- `.(segment.AccountTransactionResponse)`, an error if it is something else, and the data
  of `BookedSwiftTransactions()`, a panic if there are none -/
  statement : σ → Outcome Bytes
  /-- `.(segment.AccountBalanceResponse)`, an error if it is something else, and
  `AccountBalance()` -/
  balance : σ → Outcome β
  /-- the same with `SepaAccountBalance()`, which may return an error -/
  sepaBalance : σ → Outcome γ
  /-- `.(segment.StatusProtocolResponse)`, a panic if it is something else, and `Status()` -/
  status : σ → Outcome δ

/-- Everything the client is parametric in: the world of the dialog, the views, the sorting
of Go's library, and the readings of the clock, one after the other, in nanoseconds and as a
date. -/
structure Setup (σ α β γ δ : Type) where
  world : World σ α
  views : ClientViews σ β γ δ
  sorter : Sorter
  clock : Nat → Int
  today : Nat → Time.Civil

/-- The state of a client: its dialog, and how often the clock was read. -/
structure CSt (σ α : Type) where
  st : St σ α
  ticks : Nat

/-- /repo/client/client.go:98-102 `Client`, as far as it does not change: the version. -/
abbrev Client := Version

variable {σ α β γ δ : Type}

/-- /repo/client/client.go:104-112 `init`. -/
def init (u : Setup σ α β γ δ) (s : CSt σ α) : Outcome Unit × CSt σ α :=
  if s.st.d.bankParameterData.parameters.version = 0 then
    let r := syncClientSystemId u.world s.st
    (r.1.map' fun _ => (), { s with st := r.2 })
  else (.ok (), s)

/-- The message of /repo/client/client.go:184 (and :254-258, :293-297, :350): the request
after a TAN request naming HKIDN, which is version 6 in both HBCI versions
(/repo/segment/hbci220.go:15, /repo/segment/fints300.go:14). -/
def jobOf (c : Client) (request : Seg) : Job := ⟨[some (tanRequestV6 c!"HKIDN"), some request], c⟩

/-- `c.pinTanDialog.SendMessage`. -/
def send (u : Setup σ α β γ δ) (j : Job) (s : CSt σ α) : Outcome (Decrypted σ) × CSt σ α :=
  let r := sendMessage u.world j s.st
  (r.1, { s with st := r.2 })

/-- A view of a decoded segment with a checked type assertion. -/
def viewChecked {ε : Type} (f : σ → Outcome ε) : Decoded σ → Outcome ε
  | .ack _ => .err
  | .other x => f x

/-- A loop over the segments with the same ID: all views, or the first failure. -/
def collect {ε : Type} (f : Decoded σ → Outcome ε) : List (Decoded σ) → Outcome (List ε)
  | [] => .ok []
  | x :: xs => (f x).bind fun y => (collect f xs).map' fun ys => y :: ys

/-- The loop of /repo/client/client.go:198-205 and :318-325: the first parameter of the first
acknowledgement 3040; empty if there is none. -/
def continuation (m : Decrypted σ) : Outcome Str :=
  match m.acknowledgements.find? fun a => a.code == 3040 with
  | none => .ok []
  | some a =>
    match a.params with
    | [] => .panic
    | p :: _ => .ok p

/-- The time stamps of /repo/swift/unmarshal.go:12-17 `NewMT940Messages`: one reading of the
clock for each HIKAZ segment, in their order. -/
def stamped (clock : Nat → Int) : Nat → List Bytes → List Page
  | _, [] => []
  | n, b :: bs => ⟨b, clock n⟩ :: stamped clock (n + 1) bs

/-- How a request for transactions is made from the supported segments:
/repo/client/client.go:134-137 and :158-161. -/
abbrev RequestBuilder := Builder → Outcome TransactionRequest

/-- The request of /repo/client/client.go:175-182.  Simplification: one reading of the clock,
where the code may read it twice or not at all. -/
def transactionRequest (u : Setup σ α β γ δ) (build : RequestBuilder) (tf : Timeframe) (mark : Str) (s : CSt σ α) :
    Outcome Seg :=
  (build (newBuilder s.st.d.supportedSegments)).map' fun r =>
    let r := r.setTransactionRange (u.today s.ticks) tf
    (if mark = [] then r else r.setContinuationReference mark).seg

/-- What is made of the answer, /repo/client/client.go:189-206: the merged statements and the
next continuation reference. -/
def readPage (u : Setup σ α β γ δ) (m : Decrypted σ) (s : CSt σ α) : Outcome (Page × Str) × CSt σ α :=
  match collect (viewChecked u.views.statement) (m.segments c!"HIKAZ") with
  | .err => (.err, s)
  | .panic => (.panic, s)
  | .ok bs =>
    match continuation m with
    | .err => (.err, s)
    | .panic => (.panic, s)
    | .ok mark =>
      (.ok (merge u.sorter (u.clock (s.ticks + bs.length)) (stamped u.clock s.ticks bs), mark),
        { s with ticks := s.ticks + bs.length + 1 })

/-- One page: /repo/client/client.go:174-206. -/
def page (u : Setup σ α β γ δ) (c : Client) (build : RequestBuilder) (tf : Timeframe) (mark : Str) (s : CSt σ α) :
    Outcome (Page × Str) × CSt σ α :=
  match transactionRequest u build tf mark s with
  | .err => (.err, s)
  | .panic => (.panic, s)
  | .ok q =>
    match send u (jobOf c q) { s with ticks := s.ticks + 1 } with
    | (.err, t) => (.err, t)
    | (.panic, t) => (.panic, t)
    | (.ok m, t) => readPage u m t

/-- /repo/client/client.go:174-215 `accountTransactions`.  The recursion is as deep as the
bank sends continuation references; `none` means that it has not ended after `fuel` pages. -/
def accountTransactions (u : Setup σ α β γ δ) (c : Client) (build : RequestBuilder) (tf : Timeframe) :
    (fuel : Nat) → Str → CSt σ α → Option (Outcome Page × CSt σ α)
  | 0, _, _ => none
  | fuel + 1, mark, s =>
    match page u c build tf mark s with
    | (.err, t) => some (.err, t)
    | (.panic, t) => some (.panic, t)
    | (.ok (tx, next), t) =>
      if next = [] then some (.ok tx, t)
      else
        match accountTransactions u c build tf fuel next t with
        | none => none
        | some (.err, t) => some (.err, t)
        | some (.panic, t) => some (.panic, t)
        | some (.ok msg, t) =>
          some (.ok (merge u.sorter (u.clock t.ticks) [msg, tx]), { t with ticks := t.ticks + 1 })

/-- /repo/client/client.go:130-148 `AccountTransactions` and :155-173
`SepaAccountTransactions`, which differ in the request builder. -/
def transactions (u : Setup σ α β γ δ) (L : Swift.Lib) (c : Client) (build : RequestBuilder) (tf : Timeframe) (mark : Str)
    (fuel : Nat) (s : CSt σ α) : Option (Outcome (List (Swift.Transaction L.F)) × CSt σ α) :=
  match init u s with
  | (.err, t) => some (.err, t)
  | (.panic, t) => some (.panic, t)
  | (.ok (), t) => (accountTransactions u c build tf fuel mark t).map fun r =>
      (r.1.bind fun tx => Swift.unmarshalMT940 L tx.data, r.2)

/-- /repo/client/client.go:134-137. -/
def plainBuilder (account : AccountConnection) (all : Bool) : RequestBuilder := fun b => b.transactions account all

/-- /repo/client/client.go:158-161. -/
def sepaBuilder (account : InternationalConnection) (all : Bool) : RequestBuilder := fun b => b.sepaTransactions account all

/-! ## Balances -/

/-- The list of all balances of an answer, /repo/client/client.go:262-273 and :301-316: an
error if there is no HISAL. -/
def readBalances {ε : Type} (f : σ → Outcome ε) (m : Decrypted σ) : Outcome (List ε) :=
  (collect (viewChecked f) (m.segments c!"HISAL")).bind fun bs => if m.segments c!"HISAL" = [] then .err else .ok bs

/-- /repo/client/client.go:242-275 `AccountBalances`. -/
def accountBalances (u : Setup σ α β γ δ) (c : Client) (account : AccountConnection) (all : Bool) (s : CSt σ α) :
    Outcome (List β) × CSt σ α :=
  match init u s with
  | (.err, t) => (.err, t)
  | (.panic, t) => (.panic, t)
  | (.ok (), t) =>
    match (newBuilder t.st.d.supportedSegments).balance account all with
    | .err => (.err, t)
    | .panic => (.panic, t)
    | .ok q =>
      let r := send u (jobOf c q.seg) t
      (r.1.bind fun m => readBalances u.views.balance m, r.2)

/-- One page of /repo/client/client.go:281-326. -/
def balancePage (u : Setup σ α β γ δ) (c : Client) (account : InternationalConnection) (all : Bool) (mark : Str)
    (s : CSt σ α) : Outcome (List γ × Str) × CSt σ α :=
  match init u s with
  | (.err, t) => (.err, t)
  | (.panic, t) => (.panic, t)
  | (.ok (), t) =>
    match (newBuilder t.st.d.supportedSegments).sepaBalance account all with
    | .err => (.err, t)
    | .panic => (.panic, t)
    | .ok q =>
      let r := send u (jobOf c (if mark = [] then q else q.setContinuationMark mark).seg) t
      (r.1.bind fun m => (readBalances u.views.sepaBalance m).bind fun bs => (continuation m).map' fun next => (bs, next), r.2)

/-- /repo/client/client.go:280-335 `SepaAccountBalances`, with fuel as above. -/
def sepaAccountBalances (u : Setup σ α β γ δ) (c : Client) (account : InternationalConnection) (all : Bool) :
    (fuel : Nat) → Str → CSt σ α → Option (Outcome (List γ) × CSt σ α)
  | 0, _, _ => none
  | fuel + 1, mark, s =>
    match balancePage u c account all mark s with
    | (.err, t) => some (.err, t)
    | (.panic, t) => some (.panic, t)
    | (.ok (bs, next), t) =>
      if next = [] then some (.ok bs, t)
      else (sepaAccountBalances u c account all fuel next t).map fun r => (r.1.map' fun more => bs ++ more, r.2)

/-! ## Accounts and status -/

/-- /repo/client/client.go:115-124 `Accounts`. -/
def accounts (u : Setup σ α β γ δ) (s : CSt σ α) : Outcome (List α) × CSt σ α :=
  match init u s with
  | (.err, t) => (.err, t)
  | (.panic, t) => (.panic, t)
  | (.ok (), t) =>
    let r := syncUserParameterData u.world t.st
    (r.1.map' fun _ => r.2.d.accounts, { t with st := r.2 })

/-- /repo/client/client.go:340-362 `Status`. -/
def status (u : Setup σ α β γ δ) (c : Client) (start stop : Time.Civil) (maxEntries : Int) (mark : Str) (s : CSt σ α) :
    Outcome (List δ) × CSt σ α :=
  match init u s with
  | (.err, t) => (.err, t)
  | (.panic, t) => (.panic, t)
  | (.ok (), t) =>
    match (newBuilder t.st.d.supportedSegments).status start stop maxEntries mark with
    | .err => (.err, t)
    | .panic => (.panic, t)
    | .ok q =>
      let r := send u (jobOf c q) t
      (r.1.bind fun m => collect (viewOf u.views.status) (m.segments c!"HIPRO"), r.2)

/-! ## Creating a client -/

/-- /repo/client/client.go:19-29 `Config`, as far as `New` uses it. -/
structure Config where
  bankId : Str
  accountId : Str
  pin : Str
  url : Str
  hbciVersion : Int
  productName : Str
  productVersion : Str

/-- /repo/client/client.go:54-76: URL and version, from the configuration or else from the
database. -/
def settings (data : List Bankinfo.BankInfo) (config : Config) : Outcome (Str × Version) :=
  let info := Bankinfo.findByBankID data config.bankId
  let url := if config.url = [] then info.url else config.url
  if config.hbciVersion > 0 then (Outcome.ofOption (supportedVersion config.hbciVersion)).map' fun v => (url, v)
  else info.hbciVersion.bind fun n => (Outcome.ofOption (supportedVersion n)).map' fun v => (url, v)

/-- /repo/client/client.go:45-92 `New`: the URL, the client and the dialog.  Simplification:
the transport is part of the world. -/
def new (w : World σ α) (data : List Bankinfo.BankInfo) (config : Config) : Outcome (Str × Client × St σ α) :=
  (settings data config).map' fun (url, v) =>
    (url, v, (setPin w config.pin ⟨newPinTanDialog w ⟨280, config.bankId⟩ config.accountId v config.productName
      config.productVersion, 0, []⟩).2)

end Verif.Client

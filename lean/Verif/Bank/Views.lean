import Verif.Bank.Segments
import Verif.Client.Model
import Verif.TimeArith

/-
Model of the methods the dialog and the client call on the bank's segments, and the instance of
the dialog's and the client's model with the segments of Verif/Bank/Segments.lean.
-/

namespace Verif.Bank

open GoLib Element Segment Message Domain Dialog Client

/-- The value behind a pointer, as `p.Val()` reads it: a nil pointer panics. -/
def deref {α : Type} : Option α → Outcome α
  | some a => .ok a
  | none => .panic

/-! ## UTF-8 -/

/-- A continuation byte. -/
def isCont (b : Byte) : Bool := 128 ≤ b.toNat && b.toNat < 192

/-- The characters of a valid UTF-8 text; `none` if it is not valid. -/
def utf8Decode : Bytes → Option Str
  | [] => some []
  | a :: r =>
    if a.toNat < 128 then (utf8Decode r).map fun s => Char.ofNat a.toNat :: s
    else
      match r with
      | b :: r =>
        if 194 ≤ a.toNat ∧ a.toNat < 224 ∧ isCont b then
          (utf8Decode r).map fun s => Char.ofNat ((a.toNat - 192) * 64 + (b.toNat - 128)) :: s
        else
          match r with
          | c :: r =>
            let n := (a.toNat - 224) * 4096 + (b.toNat - 128) * 64 + (c.toNat - 128)
            if 224 ≤ a.toNat ∧ a.toNat < 240 ∧ isCont b ∧ isCont c ∧ 2048 ≤ n ∧ ¬ (55296 ≤ n ∧ n < 57344) then
              (utf8Decode r).map fun s => Char.ofNat n :: s
            else
              match r with
              | d :: r =>
                let n := (a.toNat - 240) * 262144 + (b.toNat - 128) * 4096 + (c.toNat - 128) * 64 + (d.toNat - 128)
                if 240 ≤ a.toNat ∧ a.toNat < 245 ∧ isCont b ∧ isCont c ∧ isCont d ∧ 65536 ≤ n ∧ n < 1114112 then
                  (utf8Decode r).map fun s => Char.ofNat n :: s
                else none
              | [] => none
          | [] => none
      | [] => none

/-! ## What the dialog reads -/

/-- /repo/segment/sync.go:123-125 and :155-157 `ClientSystemID`. -/
def SyncSeg.clientSystem (s : SyncSeg) : Outcome Str := deref s.clientSystemId

/-- /repo/segment/common_bank_parameter_data.go:54-66 and :99-116 `BankParameterData`, with `Val`
of the bank ID (/repo/element/group_data_element_group.go:88-93): a country code without a value
panics. -/
def BankParamsSeg.data (s : BankParamsSeg) : Outcome BankParameters :=
  (deref s.bpdVersion).bind fun version =>
    (deref s.bankId).bind fun bank =>
      (deref bank.1).bind fun country =>
        (deref s.bankName).bind fun name =>
          (deref s.transactionCount).map' fun count =>
            ⟨version, ⟨country, bank.2⟩, name, count, s.maxMessageSize.getD 0, s.minTimeout.getD 0, s.maxTimeout.getD 0⟩

/-- /repo/segment/pin_bpd.go:47-53 `PinTanBusinessTransactions`. -/
def PinParamsSeg.transactions (s : PinParamsSeg) : Outcome (List (Str × Bool)) := (deref s.params).map' (·.jobs)

/-- /repo/segment/user_parameter_data.go:54-60 and :94-100 (versions 2 and 3) and :134-150
(version 4) `UserParameterData`. -/
def UserParamsSeg.data (s : UserParamsSeg) : Outcome UserParameters :=
  (deref s.userId).bind fun id =>
    (deref s.updVersion).bind fun version =>
      (deref s.usage).map' fun usage =>
        if s.version = 4 then ⟨id, version, usage, s.userName.getD [], s.extensions.getD []⟩
        else ⟨id, version, usage, [], []⟩

/-- /repo/domain/account_information.go:45-54 `AccountInformation`, without the limit, which is
always nil. -/
structure AccountInformation where
  connection : AccountConnection
  userId : Str
  currency : Str
  name1 : Str
  name2 : Str
  productId : Str
  transactions : List BusinessTransaction
  deriving DecidableEq, Repr

/-- /repo/segment/basic_account_information.go:43-65 (version 4), :98-123 (5), :159-184 (6) and
:222-247 (7) `Account`: version 4 needs the connection and the currency as well. -/
def AccountSeg.account (s : AccountSeg) : Outcome AccountInformation :=
  if s.version = 4 ∧ (s.connection = none ∨ s.currency = none) then .panic
  else
    (deref s.userId).bind fun id =>
      (deref s.name1).map' fun name =>
        ⟨s.connection.getD ⟨[], [], 0, []⟩, id, s.currency.getD [], name, s.name2.getD [], s.productId.getD [],
         s.transactions.getD []⟩

/-- The functions and names /repo/dialog/dialog.go:513-523 takes from an HITANS segment.  A
function that is no valid UTF-8 cannot equal a parameter of an acknowledgement and is left out.
Simplification: a name that is no valid UTF-8 counts as empty; it is not used further. -/
def TanParamsSeg.functions (s : TanParamsSeg) : Outcome (List (Str × Option Str)) :=
  (deref s.params).map' fun p =>
    p.processes.filterMap fun q => (utf8Decode q.securityFunction).map fun f => (f, some ((utf8Decode q.name).getD []))

/-- /repo/dialog/dialog.go:294 and :386: subject and body. -/
def AnnouncementSeg.shown (s : AnnouncementSeg) : Outcome Unit :=
  (deref s.subject).bind fun _ => (deref s.body).map' fun _ => ()

/-- `Header()` of a segment. -/
def BankSeg.header : BankSeg → Header
  | .sync s => s.header
  | .bankParams s => s.header
  | .pinParams s => s.header
  | .diPins s => s.1
  | .userParams s => s.header
  | .account s => s.header
  | .tanParams s => s.header
  | .tanResponse s => s.header
  | .announcement s => s.header
  | .statement s => s.header
  | .balance s => s.header
  | .internationalBalance s => s.header
  | .status s => s.header
  | .messageHeader s => s.header
  | .encryptedData s => s.1
  | .unread h => h

/-- The views of the dialog: a failed type assertion panics, but for the bank parameters
(/repo/dialog/dialog.go:535-538). -/
def views : Views BankSeg AccountInformation where
  clientSystemId
    | .sync s => s.clientSystem
    | _ => .panic
  bankParameters
    | .bankParams s => s.data
    | _ => .err
  pinTan
    | .pinParams s => s.transactions
    | .diPins s => .ok s.2
    | _ => .panic
  userParameters
    | .userParams s => s.data
    | _ => .panic
  account
    | .account s => s.account
    | _ => .panic
  announcement
    | .announcement s => s.shown
    | _ => .panic
  tanFunctions
    | .tanParams s => s.functions
    | _ => .panic
  version s := s.header.version

/-! ## What the client reads -/

/-- /repo/segment/account_transaction.go:238-240, :260-262 and :282-284
`BookedSwiftTransactions`: the method of a nil element panics
(/repo/element/swift.go:26-28). -/
def StatementSeg.data (s : StatementSeg) : Outcome Bytes := deref s.booked

/-- The fields of /repo/domain/account_balance.go:55-66 `AccountBalance`
(`κ = AccountConnection`) and :133-145 `SepaAccountBalance`. -/
structure AccountBalance (κ : Type) where
  account : κ
  product : Str
  currency : Str
  booked : Balance
  earmarked : Option Balance
  creditLimit : Option Amount
  available : Option Amount
  used : Option Amount
  bookingDate : Option Time.Civil
  dueDate : Option Time.Civil
  seizable : Option Amount
  deriving DecidableEq, Repr

/-- /repo/segment/account_balance.go:248-255 and the same lines of the other versions: the
booking date, to which the time since `time.Time{}` of the booking time is added; a time without
a date writes through a nil pointer. -/
def bookingDate (date time : Option Time.Civil) : Outcome (Option Time.Civil) :=
  match time with
  | none => .ok date
  | some t => (deref date).map' fun d => some (Time.add d (Time.sub t Time.zeroTime))

/-- /repo/segment/account_balance.go:225-261, :301-337, :377-413, :415-451, :489-525 and :527-567:
`AccountBalance` and `SepaAccountBalance`; `conn` is `Val` of the connection and `seizable` the
last field. -/
def BalanceSeg.read {κ μ : Type} (s : BalanceSeg κ) (conn : κ → Outcome μ) (seizable : Option Amount) :
    Outcome (AccountBalance μ) :=
  (deref s.connection).bind fun c =>
    (conn c).bind fun c =>
      (deref s.product).bind fun p =>
        (deref s.currency).bind fun cur =>
          (deref s.booked).bind fun b =>
            (Bank.bookingDate s.bookingDate s.bookingTime).map' fun date =>
              ⟨c, p, cur, b, s.earmarked, s.creditLimit, s.available, s.used, date, s.dueDate, seizable⟩

/-- /repo/domain/acknowledgement.go:97-100 `StatusAcknowledgement`. -/
structure StatusAcknowledgement where
  acknowledgement : Acknowledgement
  transmittedAt : Time.Civil
  deriving DecidableEq, Repr

/-- The references of /repo/segment/status_protocol.go:138-145. -/
def StatusSeg.references (s : StatusSeg) : Outcome (AckType × MessageReference × Int) :=
  match s.message with
  | none => .ok (.message, ⟨[], 0⟩, 0)
  | some m => (deref s.segment).map' fun n => (.segment, ⟨m.1, m.2⟩, n)

/-- /repo/segment/status_protocol.go:136-151 and :176-191 `Status`; `now` is the clock that
`time.Since` reads. -/
def StatusSeg.status (now : Time.Civil) (s : StatusSeg) : Outcome StatusAcknowledgement :=
  (deref s.acknowledgement).bind fun a =>
    s.references.bind fun r =>
      (deref s.date).bind fun date =>
        (deref s.time).map' fun time =>
          ⟨{ type := r.1, code := a.code, referenceDataElement := a.reference, text := a.text, params := a.params,
             referencingMessage := r.2.1, referencingSegmentNumber := r.2.2 },
           Time.add date (Time.sub now time)⟩

/-- The views of the client.  Versions 5 and 6 of the balance have no SEPA balance
(/repo/segment/account_balance.go:262-264 and :338-340).  Simplification: the clock is one
reading for all status segments of an answer. -/
def clientViews (now : Time.Civil) :
    ClientViews BankSeg (AccountBalance AccountConnection) (AccountBalance InternationalConnection) StatusAcknowledgement where
  statement
    | .statement s => s.data
    | _ => .err
  balance
    | .balance s => s.read .ok none
    | .internationalBalance s => s.read (fun c => c.val.map' toAccountConnection) none
    | _ => .err
  sepaBalance
    | .internationalBalance s => s.read ReadInternational.val s.seizable
    | _ => .err
  status
    | .status s => s.status now
    | _ => .panic

end Verif.Bank

import Verif.Bank.Elements

/-
Model of the segments the bank sends: the generated unmarshalers of the package segment
(segment/*_unmarshaler.go), the hand-written one of segment/business_transaction.go and the
index of known segments.
-/

namespace Verif.Bank

open GoLib Element Segment Message

/-! ## The pattern of the generated unmarshalers -/

/-- The beginning of every generated unmarshaler, for example
/repo/segment/sync_unmarshaler.go:55-67: extract the elements, fail if there are none, read the
header (/repo/segment/segment.go:56-63). -/
def generated {α : Type} (b : Bytes) (k : Header → List Bytes → Outcome α) : Outcome α :=
  (Segment.extractElements b).bind fun es =>
    match es with
    | [] => .err
    | hb :: _ => (unmarshalHeader hb).bind fun h => k h es

/-- A text element: alphanumeric, text, identification, code and currency elements are read
alike (/repo/element/data_element.go:265-268, :296-299, :672-678, :551-554, :735-741). -/
def text (b : Bytes) : Outcome Str := .ok (unmarshalText b)

/-- A segment whose values nothing reads: its header, and whether its fields can be read; the
last field takes the remaining elements. -/
def opaqueSegment (b : Bytes) (fs : List (Nat × (Bytes → Outcome Unit))) (last : Nat) (f : Bytes → Outcome Unit) :
    Outcome Header :=
  generated b fun h es => (checkFields es fs).bind fun _ => (lastField es last f).map' fun _ => h

/-! ## Segments with values -/

/-- /repo/segment/sync.go:103-108 and :135-140. -/
structure SyncSeg where
  header : Header
  clientSystemId : Option Str
  messageNumber : Option Int
  signatureId : Option Int
  deriving DecidableEq, Repr

/-- /repo/segment/sync_unmarshaler.go:55-94 and :96-135. -/
def unmarshalSync (b : Bytes) : Outcome SyncSeg :=
  generated b fun h es =>
    (field es 1 text).bind fun id =>
      (field es 2 unmarshalNumber).bind fun n =>
        (lastField es 3 unmarshalNumber).map' fun s => ⟨h, id, n, s⟩

/-- /repo/segment/common_bank_parameter_data.go:27-35 and :68-78; version 2 has no timeouts. -/
structure BankParamsSeg where
  header : Header
  bpdVersion : Option Int
  bankId : Option (Option Int × Str)
  bankName : Option Str
  transactionCount : Option Int
  languages : Option (List Int)
  hbciVersions : Option (List Int)
  maxMessageSize : Option Int
  minTimeout : Option Int
  maxTimeout : Option Int
  deriving DecidableEq, Repr

/-- The first six fields of both versions. -/
def bankParamsHead (h : Header) (es : List Bytes) (k : (Option Int → Option Int → Option Int → BankParamsSeg) → Outcome BankParamsSeg) :
    Outcome BankParamsSeg :=
  (field es 1 unmarshalNumber).bind fun version =>
    (field es 2 unmarshalBankIdentification).bind fun bank =>
      (field es 3 text).bind fun name =>
        (field es 4 unmarshalNumber).bind fun count =>
          (field es 5 unmarshalLanguages).bind fun languages =>
            (field es 6 unmarshalVersions).bind fun versions =>
              k (BankParamsSeg.mk h version bank name count languages versions)

/-- /repo/segment/common_bank_parameter_data_unmarshaler.go:55-122. -/
def unmarshalBankParamsV2 (b : Bytes) : Outcome BankParamsSeg :=
  generated b fun h es =>
    bankParamsHead h es fun seg => (lastField es 7 unmarshalNumber).map' fun size => seg size none none

/-- /repo/segment/common_bank_parameter_data_unmarshaler.go:124-205. -/
def unmarshalBankParamsV3 (b : Bytes) : Outcome BankParamsSeg :=
  generated b fun h es =>
    bankParamsHead h es fun seg =>
      (field es 7 unmarshalNumber).bind fun size =>
        (field es 8 unmarshalNumber).bind fun lo => (lastField es 9 unmarshalNumber).map' fun hi => seg size lo hi

/-- /repo/segment/pin_bpd.go:23-31.  The three numbers are not kept. -/
structure PinParamsSeg where
  header : Header
  params : Option PinParams
  deriving DecidableEq, Repr

/-- /repo/segment/pin_bpd_unmarshaler.go:46-92. -/
def unmarshalPinParamsSeg (b : Bytes) : Outcome PinParamsSeg :=
  generated b fun h es =>
    (checkFields es [(1, check unmarshalNumber), (2, check unmarshalNumber), (3, check unmarshalNumber)]).bind fun _ =>
      (lastField es 4 unmarshalPinParams).map' fun p => ⟨h, p⟩

/-- /repo/segment/business_transaction.go:34-58 and :78-96
`PinTanBusinessTransactionParamsSegment.UnmarshalHBCI`: `elements[0]` panics if there is none. -/
def unmarshalDiPins (b : Bytes) : Outcome (Header × List (Str × Bool)) :=
  (Segment.extractElements b).bind fun es =>
    match es with
    | [] => .panic
    | hb :: es =>
      (unmarshalHeader hb).bind fun h =>
        match es with
        | jobs :: signatures :: params :: _ =>
          (unmarshalNumber jobs).bind fun _ =>
            (unmarshalNumber signatures).bind fun _ => (unmarshalPinJobs params).map' fun ps => (h, ps)
        | _ => .err

/-- /repo/segment/user_parameter_data.go:25-39, :62-77 and :102-117; `version` is that of the
type. -/
structure UserParamsSeg where
  header : Header
  version : Nat
  userId : Option Str
  updVersion : Option Int
  usage : Option Int
  userName : Option Str
  extensions : Option Str
  deriving DecidableEq, Repr

/-- /repo/segment/user_parameter_data_unmarshaler.go:64-103. -/
def unmarshalUserParamsV2 (b : Bytes) : Outcome UserParamsSeg :=
  generated b fun h es =>
    (field es 1 text).bind fun id =>
      (field es 2 unmarshalNumber).bind fun version =>
        (lastField es 3 unmarshalNumber).map' fun usage => ⟨h, 2, id, version, usage, none, none⟩

/-- /repo/segment/user_parameter_data_unmarshaler.go:105-158 (`v` = 3) and :160-213 (`v` = 4). -/
def unmarshalUserParams (v : Nat) (b : Bytes) : Outcome UserParamsSeg :=
  generated b fun h es =>
    (field es 1 text).bind fun id =>
      (field es 2 unmarshalNumber).bind fun version =>
        (field es 3 unmarshalNumber).bind fun usage =>
          (field es 4 text).bind fun name =>
            (lastField es 5 text).map' fun ext => ⟨h, v, id, version, usage, name, ext⟩

/-- /repo/segment/basic_account_information.go:26-36, :80-91, :139-152 and :202-215.  The IBAN,
the account type and the extensions are read but not kept; there is no limit, since reading one
panics. -/
structure AccountSeg where
  header : Header
  version : Nat
  connection : Option AccountConnection
  userId : Option Str
  currency : Option Str
  name1 : Option Str
  name2 : Option Str
  productId : Option Str
  transactions : Option (List BusinessTransaction)
  deriving DecidableEq, Repr

/-- The currency, the names, the product and the limit, which stand together from `i` on in all
versions. -/
def accountTail (h : Header) (v : Nat) (es : List Bytes) (i : Nat) (conn : Option AccountConnection) (id : Option Str)
    (ts : Outcome (Option (List BusinessTransaction))) : Outcome AccountSeg :=
  (field es i text).bind fun currency =>
    (field es (i + 1) text).bind fun name1 =>
      (field es (i + 2) text).bind fun name2 =>
        (field es (i + 3) text).bind fun product =>
          (field es (i + 4) (unmarshalNil (α := Unit))).bind fun _ =>
            ts.map' fun ts => ⟨h, v, conn, id, currency, name1, name2, product, ts⟩

/-- /repo/segment/basic_account_information_unmarshaler.go:73-147. -/
def unmarshalAccountV4 (b : Bytes) : Outcome AccountSeg :=
  generated b fun h es =>
    (field es 1 unmarshalAccountConnection).bind fun conn =>
      (field es 2 text).bind fun id =>
        accountTail h 4 es 3 conn id (lastField es 8 unmarshalBusinessTransactions)

/-- /repo/segment/basic_account_information_unmarshaler.go:149-230. -/
def unmarshalAccountV5 (b : Bytes) : Outcome AccountSeg :=
  generated b fun h es =>
    (field es 1 unmarshalAccountConnection).bind fun conn =>
      (field es 2 text).bind fun id =>
        (field es 3 unmarshalNumber).bind fun _ =>
          accountTail h 5 es 4 conn id (lastField es 9 unmarshalBusinessTransactions)

/-- /repo/segment/basic_account_information_unmarshaler.go:232-327 (`v` = 6) and :329-424
(`v` = 7): the allowed transactions are one element only; the rest, joined, is the extension. -/
def unmarshalAccount (v : Nat) (b : Bytes) : Outcome AccountSeg :=
  generated b fun h es =>
    (field es 1 unmarshalAccountConnection).bind fun conn =>
      (field es 2 text).bind fun _ =>
        (field es 3 text).bind fun id =>
          (field es 4 unmarshalNumber).bind fun _ =>
            accountTail h v es 5 conn id
              ((field es 10 unmarshalBusinessTransactions).bind fun ts => (lastField es 11 text).map' fun _ => ts)

/-- /repo/segment/tan_bpd.go:23-29.  The numbers and the class are not kept. -/
structure TanParamsSeg where
  header : Header
  params : Option TanParams
  deriving DecidableEq, Repr

/-- /repo/segment/tan_bpd_unmarshaler.go:46-92. -/
def unmarshalTanParamsSeg (b : Bytes) : Outcome TanParamsSeg :=
  generated b fun h es =>
    (checkFields es [(1, check unmarshalNumber), (2, check unmarshalNumber), (3, anyText)]).bind fun _ =>
      (lastField es 4 unmarshalTanParams).map' fun p => ⟨h, p⟩

/-- /repo/segment/tan.go:136-144, the first three fields: the others are never read. -/
structure TanResponseSeg where
  header : Header
  process : Option Str
  jobHash : Option Bytes
  jobReference : Option Str
  deriving DecidableEq, Repr

/-- /repo/segment/tan_unmarshaler.go:46-85. -/
def unmarshalTanResponse (b : Bytes) : Outcome TanResponseSeg :=
  generated b fun h es =>
    (field es 1 text).bind fun p =>
      (field es 2 unmarshalBinary).bind fun hash => (lastField es 3 text).map' fun r => ⟨h, p, hash, r⟩

/-- /repo/segment/bank_announcement.go:9-13. -/
structure AnnouncementSeg where
  header : Header
  subject : Option Str
  body : Option Str
  deriving DecidableEq, Repr

/-- /repo/segment/bank_announcement_unmarshaler.go:21-53. -/
def unmarshalAnnouncement (b : Bytes) : Outcome AnnouncementSeg :=
  generated b fun h es => (field es 1 text).bind fun s => (lastField es 2 text).map' fun t => ⟨h, s, t⟩

/-- /repo/segment/account_transaction.go:232-236, :254-258 and :276-280: the booked data, as
/repo/element/swift.go:15-23 reads it, and the unbooked. -/
structure StatementSeg where
  header : Header
  booked : Option Bytes
  unbooked : Option Bytes
  deriving DecidableEq, Repr

/-- /repo/segment/account_transaction_unmarshaler.go:64-96, :98-130 and :132-164. -/
def unmarshalStatement (b : Bytes) : Outcome StatementSeg :=
  generated b fun h es =>
    (field es 1 unmarshalBinary).bind fun x => (lastField es 2 unmarshalBinary).map' fun y => ⟨h, x, y⟩

/-- /repo/segment/account_balance.go:205-218, :281-294, :357-370 and :468-482; the connection is
national (`κ = AccountConnection`) in versions 5 and 6, international in 7 and 8, and only
version 8 has a seizable amount. -/
structure BalanceSeg (κ : Type) where
  header : Header
  connection : Option κ
  product : Option Str
  currency : Option Str
  booked : Option Balance
  earmarked : Option Balance
  creditLimit : Option Amount
  available : Option Amount
  used : Option Amount
  bookingDate : Option Time.Civil
  bookingTime : Option Time.Civil
  dueDate : Option Time.Civil
  seizable : Option Amount
  deriving DecidableEq, Repr

/-- The first ten fields of all versions. -/
def balanceHead {κ : Type} (h : Header) (es : List Bytes) (conn : Bytes → Outcome κ)
    (k : (Option Time.Civil → Option Amount → BalanceSeg κ) → Outcome (BalanceSeg κ)) : Outcome (BalanceSeg κ) :=
  (field es 1 conn).bind fun c =>
    (field es 2 text).bind fun p =>
      (field es 3 text).bind fun cur =>
        (field es 4 unmarshalBalance).bind fun booked =>
          (field es 5 unmarshalBalance).bind fun earmarked =>
            (field es 6 unmarshalAmount).bind fun limit =>
              (field es 7 unmarshalAmount).bind fun available =>
                (field es 8 unmarshalAmount).bind fun used =>
                  (field es 9 unmarshalDate).bind fun date =>
                    (field es 10 unmarshalTime).bind fun time =>
                      k (BalanceSeg.mk h c p cur booked earmarked limit available used date time)

/-- /repo/segment/account_balance_unmarshaler.go:73-168, :170-265 (national) and :267-362
(international). -/
def unmarshalBalanceSeg {κ : Type} (conn : Bytes → Outcome κ) (b : Bytes) : Outcome (BalanceSeg κ) :=
  generated b fun h es =>
    balanceHead h es conn fun seg => (lastField es 11 unmarshalDate).map' fun due => seg due none

/-- /repo/segment/account_balance_unmarshaler.go:364-466. -/
def unmarshalBalanceSegV8 (b : Bytes) : Outcome (BalanceSeg ReadInternational) :=
  generated b fun h es =>
    balanceHead h es readInternational fun seg =>
      (field es 11 unmarshalDate).bind fun due => (lastField es 12 unmarshalAmount).map' fun s => seg due s

/-- /repo/segment/status_protocol.go:112-119 and :152-159. -/
structure StatusSeg where
  header : Header
  message : Option (Str × Int)
  segment : Option Int
  date : Option Time.Civil
  time : Option Time.Civil
  acknowledgement : Option AckEntry
  deriving DecidableEq, Repr

/-- /repo/segment/status_protocol_unmarshaler.go:55-108 and :110-163. -/
def unmarshalStatus (b : Bytes) : Outcome StatusSeg :=
  generated b fun h es =>
    (field es 1 unmarshalReference).bind fun m =>
      (field es 2 unmarshalNumber).bind fun s =>
        (field es 3 unmarshalDate).bind fun d =>
          (field es 4 unmarshalTime).bind fun t => (lastField es 5 unmarshalAck).map' fun a => ⟨h, m, s, d, t, a⟩

/-! ## Segments whose values nothing reads -/

/-- /repo/segment/message_end_unmarshaler.go:21-46. -/
def unmarshalMsgEnd (b : Bytes) : Outcome Header := opaqueSegment b [] 1 (check unmarshalNumber)

/-- /repo/segment/encryption_header_unmarshaler.go:55-129. -/
def unmarshalEncryptionV2 (b : Bytes) : Outcome Header :=
  opaqueSegment b
    [(1, anyText), (2, anyText), (3, checkSecurityId), (4, checkSecurityDate),
     (5, check (unmarshalEncryptionAlgorithm ⟨none, none, none, none, none, none, none⟩)), (6, checkKeyName), (7, anyText)]
    8 unmarshalNil

/-- /repo/segment/encryption_header_unmarshaler.go:131-212. -/
def unmarshalEncryptionV3 (b : Bytes) : Outcome Header :=
  opaqueSegment b
    [(1, check (unmarshalSecurityProfile none)), (2, anyText), (3, anyText), (4, checkSecurityId), (5, checkSecurityDate),
     (6, check (unmarshalEncryptionAlgorithm ⟨none, none, none, none, none, none, none⟩)), (7, checkKeyName), (8, anyText)]
    9 unmarshalNil

/-- /repo/segment/signature_header_unmarshaler.go:55-150. -/
def unmarshalSignatureV3 (b : Bytes) : Outcome Header :=
  opaqueSegment b
    [(1, anyText), (2, anyText), (3, anyText), (4, anyText), (5, checkSecurityId), (6, check unmarshalNumber),
     (7, checkSecurityDate), (8, checkHashAlgorithm), (9, checkSignatureAlgorithm), (10, checkKeyName)]
    11 unmarshalNil

/-- /repo/segment/signature_header_unmarshaler.go:152-254. -/
def unmarshalSignatureV4 (b : Bytes) : Outcome Header :=
  opaqueSegment b
    [(1, check (unmarshalSecurityProfile none)), (2, anyText), (3, anyText), (4, anyText), (5, anyText), (6, checkSecurityId),
     (7, check unmarshalNumber), (8, checkSecurityDate), (9, checkHashAlgorithm), (10, checkSignatureAlgorithm),
     (11, checkKeyName)]
    12 unmarshalNil

/-- /repo/segment/signature_end_unmarshaler.go:55-94. -/
def unmarshalSignatureEndV1 (b : Bytes) : Outcome Header :=
  opaqueSegment b [(1, anyText), (2, check unmarshalBinary)] 3 checkPinTan

/-- /repo/segment/signature_end_unmarshaler.go:96-135. -/
def unmarshalSignatureEndV2 (b : Bytes) : Outcome Header :=
  opaqueSegment b [(1, anyText), (2, check unmarshalBinary)] 3 checkCustomSignature

/-- /repo/segment/communication_access_unmarshaler.go:21-60. -/
def unmarshalCommunication (b : Bytes) : Outcome Header :=
  opaqueSegment b [(1, check unmarshalBankIdentification), (2, check unmarshalNumber)] 3 unmarshalNil

/-- /repo/segment/supported_compression_method_unmarshaler.go:21-46. -/
def unmarshalCompression (b : Bytes) : Outcome Header := opaqueSegment b [] 1 unmarshalNil

/-- /repo/segment/supported_security_method_unmarshaler.go:21-53. -/
def unmarshalSecurityMethod (b : Bytes) : Outcome Header := opaqueSegment b [(1, check unmarshalBool)] 2 checkSecurityMethod

/-- /repo/segment/account_information_unmarshaler.go:21-151. -/
def unmarshalAccountInformation (b : Bytes) : Outcome Header :=
  opaqueSegment b
    [(1, check unmarshalAccountConnection), (2, check unmarshalNumber), (3, anyText), (4, anyText), (5, anyText), (6, anyText),
     (7, check unmarshalDate), (8, check unmarshalFloat), (9, check unmarshalFloat), (10, check unmarshalFloat),
     (11, check unmarshalAmount), (12, check unmarshalAccountConnection), (13, check unmarshalNumber),
     (14, check unmarshalNumber), (15, anyText)]
    16 unmarshalNil

/-! ## The index -/

/-- A decoded segment of the bank other than an acknowledgement. -/
inductive BankSeg where
  | sync (s : SyncSeg)
  | bankParams (s : BankParamsSeg)
  | pinParams (s : PinParamsSeg)
  | diPins (s : Header × List (Str × Bool))
  | userParams (s : UserParamsSeg)
  | account (s : AccountSeg)
  | tanParams (s : TanParamsSeg)
  | tanResponse (s : TanResponseSeg)
  | announcement (s : AnnouncementSeg)
  | statement (s : StatementSeg)
  | balance (s : BalanceSeg AccountConnection)
  | internationalBalance (s : BalanceSeg ReadInternational)
  | status (s : StatusSeg)
  | messageHeader (s : ReadHeader)
  | encryptedData (s : Header × Option Bytes)
  | unread (h : Header)
  deriving DecidableEq, Repr

/-- The entries of `KnownSegments` besides the two acknowledgements: ID, version and
unmarshaler, registered in /repo/segment/segment_index.go:67 and in the `init` functions of the
generated files. -/
def known : List (Str × Int × (Bytes → Outcome BankSeg)) :=
  [(c!"DIPINS", 1, fun b => (unmarshalDiPins b).map' .diPins),
   (c!"HNHBK", 3, fun b => (unmarshalMsgHeader b).map' .messageHeader),
   (c!"HNHBS", 1, fun b => (unmarshalMsgEnd b).map' .unread),
   (c!"HNVSK", 2, fun b => (unmarshalEncryptionV2 b).map' .unread),
   (c!"HNVSK", 3, fun b => (unmarshalEncryptionV3 b).map' .unread),
   (c!"HNVSD", 1, fun b => (unmarshalEncryptedData b).map' .encryptedData),
   (c!"HNSHK", 3, fun b => (unmarshalSignatureV3 b).map' .unread),
   (c!"HNSHK", 4, fun b => (unmarshalSignatureV4 b).map' .unread),
   (c!"HNSHA", 1, fun b => (unmarshalSignatureEndV1 b).map' .unread),
   (c!"HNSHA", 2, fun b => (unmarshalSignatureEndV2 b).map' .unread),
   (c!"HISYN", 3, fun b => (unmarshalSync b).map' .sync),
   (c!"HISYN", 4, fun b => (unmarshalSync b).map' .sync),
   (c!"HIBPA", 2, fun b => (unmarshalBankParamsV2 b).map' .bankParams),
   (c!"HIBPA", 3, fun b => (unmarshalBankParamsV3 b).map' .bankParams),
   (c!"HIUPA", 2, fun b => (unmarshalUserParamsV2 b).map' .userParams),
   (c!"HIUPA", 3, fun b => (unmarshalUserParams 3 b).map' .userParams),
   (c!"HIUPA", 4, fun b => (unmarshalUserParams 4 b).map' .userParams),
   (c!"HIUPD", 4, fun b => (unmarshalAccountV4 b).map' .account),
   (c!"HIUPD", 5, fun b => (unmarshalAccountV5 b).map' .account),
   (c!"HIUPD", 6, fun b => (unmarshalAccount 6 b).map' .account),
   (c!"HIUPD", 7, fun b => (unmarshalAccount 7 b).map' .account),
   (c!"HIPINS", 1, fun b => (unmarshalPinParamsSeg b).map' .pinParams),
   (c!"HITANS", 6, fun b => (unmarshalTanParamsSeg b).map' .tanParams),
   (c!"HITAN", 6, fun b => (unmarshalTanResponse b).map' .tanResponse),
   (c!"HIKIM", 2, fun b => (unmarshalAnnouncement b).map' .announcement),
   (c!"HIKAZ", 5, fun b => (unmarshalStatement b).map' .statement),
   (c!"HIKAZ", 6, fun b => (unmarshalStatement b).map' .statement),
   (c!"HIKAZ", 7, fun b => (unmarshalStatement b).map' .statement),
   (c!"HISAL", 5, fun b => (unmarshalBalanceSeg unmarshalAccountConnection b).map' .balance),
   (c!"HISAL", 6, fun b => (unmarshalBalanceSeg unmarshalAccountConnection b).map' .balance),
   (c!"HISAL", 7, fun b => (unmarshalBalanceSeg readInternational b).map' .internationalBalance),
   (c!"HISAL", 8, fun b => (unmarshalBalanceSegV8 b).map' .internationalBalance),
   (c!"HIPRO", 3, fun b => (unmarshalStatus b).map' .status),
   (c!"HIPRO", 4, fun b => (unmarshalStatus b).map' .status),
   (c!"HIKIF", 1, fun b => (unmarshalAccountInformation b).map' .unread),
   (c!"HIKOM", 3, fun b => (unmarshalCommunication b).map' .unread),
   (c!"HIKPV", 1, fun b => (unmarshalCompression b).map' .unread),
   (c!"HISHV", 2, fun b => (unmarshalSecurityMethod b).map' .unread)]

/-- `KnownSegments.UnmarshalerForSegment` (/repo/segment/segment_index.go:18-31) on those. -/
def decoders : Decoders BankSeg := fun id version =>
  (known.find? fun e => e.1 == id && e.2.1 == version).map fun e => e.2.2

end Verif.Bank

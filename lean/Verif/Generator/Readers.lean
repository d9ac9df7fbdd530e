import Verif.Generator.Sources
import Verif.Message.Reader

/-
The segments of a bank as the generator sees them: the types of their elements, and for every registered
segment the source file it stands in and the segment its fields make.
-/

namespace Verif.Generator

open GoLib Element Segment Message Bank

/-! ## Elements -/

/-- The ways in which elements are read; several types are read alike. -/
inductive Kind where
  | text | number | binary | date | time | bool | value | amount | balance | bankId | account | international
  | languages | versions | transactions | reference | acknowledgement | pinParams | tanParams
  | securityId | securityDate | hashAlgorithm | signatureAlgorithm | encryptionAlgorithm | keyName | profile
  | pinTan | customSignature | securityMethod | nil
  deriving DecidableEq, Repr

/-- The types of elements that occur in the segments of a bank, with the way their `UnmarshalHBCI` reads: texts
(/repo/element/data_element.go:265-268, :296-299, :672-678, :551-554, :735-741), numbers (:355-362, :327-334),
values (:763-771), binary data (:454-479, /repo/element/swift.go:15-23), dates, times, truth values and the
groups modelled in Verif.Element and Verif.Bank; `nil` are the types without a method of their own. -/
def elementTypes : List (Str × Kind) :=
  [(c!"element.AlphaNumericDataElement", .text), (c!"element.TextDataElement", .text),
   (c!"element.IdentificationDataElement", .text), (c!"element.CodeDataElement", .text),
   (c!"element.CurrencyDataElement", .text), (c!"element.NumberDataElement", .number),
   (c!"element.DigitDataElement", .number), (c!"element.ValueDataElement", .value),
   (c!"element.BinaryDataElement", .binary), (c!"element.SwiftMT940DataElement", .binary),
   (c!"element.DateDataElement", .date), (c!"element.TimeDataElement", .time), (c!"element.BooleanDataElement", .bool),
   (c!"element.AmountDataElement", .amount), (c!"element.BalanceDataElement", .balance),
   (c!"element.BankIdentificationDataElement", .bankId), (c!"element.AccountConnectionDataElement", .account),
   (c!"element.InternationalAccountConnectionDataElement", .international),
   (c!"element.SupportedLanguagesDataElement", .languages), (c!"element.SupportedHBCIVersionsDataElement", .versions),
   (c!"element.AllowedBusinessTransactionsDataElement", .transactions),
   (c!"element.ReferencingMessageDataElement", .reference), (c!"element.AcknowledgementDataElement", .acknowledgement),
   (c!"element.PinTanSpecificParamDataElement", .pinParams), (c!"element.Tan2StepSubmissionParameterV6", .tanParams),
   (c!"element.SecurityIdentificationDataElement", .securityId), (c!"element.SecurityDateDataElement", .securityDate),
   (c!"element.HashAlgorithmDataElement", .hashAlgorithm), (c!"element.SignatureAlgorithmDataElement", .signatureAlgorithm),
   (c!"element.EncryptionAlgorithmDataElement", .encryptionAlgorithm), (c!"element.KeyNameDataElement", .keyName),
   (c!"element.SecurityProfileDataElement", .profile), (c!"element.PinTanDataElement", .pinTan),
   (c!"element.CustomSignatureDataElement", .customSignature),
   (c!"element.SupportedSecurityMethodDataElement", .securityMethod), (c!"element.CertificateDataElement", .nil),
   (c!"element.AccountLimitDataElement", .nil), (c!"element.CommunicationParameterDataElement", .nil),
   (c!"element.SupportedCompressionMethodsDataElement", .nil), (c!"element.DisposalEligiblePersonsDataElement", .nil)]

/-- A read element: what the fields of the segments in Verif.Bank.Segments hold
(/repo/segment/account_balance.go:205-218 for example). `unread` is an element whose value nothing reads. -/
inductive Val where
  | text (s : Str)
  | number (n : Int)
  | binary (b : Bytes)
  | date (d : Time.Civil)
  | amount (a : Amount)
  | balance (b : Balance)
  | bankId (b : Option Int × Str)
  | account (c : AccountConnection)
  | international (c : ReadInternational)
  | numbers (l : List Int)
  | transactions (l : List BusinessTransaction)
  | reference (r : Str × Int)
  | acknowledgement (a : AckEntry)
  | pinParams (p : PinParams)
  | tanParams (p : TanParams)
  | unread

/-- The `UnmarshalHBCI` method of each kind of element, as modelled in Verif.Element, Verif.Message and
Verif.Bank.Elements (/repo/element). -/
def Kind.read : Kind → Bytes → Outcome Val
  | .text, b => (Bank.text b).map' .text
  | .number, b => (unmarshalNumber b).map' .number
  | .binary, b => (unmarshalBinary b).map' .binary
  | .date, b => (unmarshalDate b).map' .date
  | .time, b => (unmarshalTime b).map' .date
  | .bool, b => (unmarshalBool b).map' fun _ => .unread
  | .value, b => (unmarshalFloat b).map' fun _ => .unread
  | .amount, b => (unmarshalAmount b).map' .amount
  | .balance, b => (unmarshalBalance b).map' .balance
  | .bankId, b => (unmarshalBankIdentification b).map' .bankId
  | .account, b => (unmarshalAccountConnection b).map' .account
  | .international, b => (readInternational b).map' .international
  | .languages, b => (unmarshalLanguages b).map' .numbers
  | .versions, b => (unmarshalVersions b).map' .numbers
  | .transactions, b => (unmarshalBusinessTransactions b).map' .transactions
  | .reference, b => (unmarshalReference b).map' .reference
  | .acknowledgement, b => (unmarshalAck b).map' .acknowledgement
  | .pinParams, b => (unmarshalPinParams b).map' .pinParams
  | .tanParams, b => (unmarshalTanParams b).map' .tanParams
  | .securityId, b => (checkSecurityId b).map' fun _ => .unread
  | .securityDate, b => (checkSecurityDate b).map' fun _ => .unread
  | .hashAlgorithm, b => (checkHashAlgorithm b).map' fun _ => .unread
  | .signatureAlgorithm, b => (checkSignatureAlgorithm b).map' fun _ => .unread
  | .encryptionAlgorithm, b =>
    (unmarshalEncryptionAlgorithm ⟨none, none, none, none, none, none, none⟩ b).map' fun _ => .unread
  | .keyName, b => (checkKeyName b).map' fun _ => .unread
  | .profile, b => (unmarshalSecurityProfile none b).map' fun _ => .unread
  | .pinTan, b => (checkPinTan b).map' fun _ => .unread
  | .customSignature, b => (checkCustomSignature b).map' fun _ => .unread
  | .securityMethod, b => (checkSecurityMethod b).map' fun _ => .unread
  | .nil, b => (unmarshalNil (α := Unit) b).map' fun _ => .unread

/-- `UnmarshalHBCI` by the name of the type (/repo/generator/segment_unmarshaler.go:282-288 writes that name
into the code); code with an unknown type would not compile, which counts as failure. -/
def readElement (t : Str) (b : Bytes) : Outcome Val :=
  match elementTypes.lookup t with
  | some k => k.read b
  | none => .err

/-! ## Fields by name -/

/-- The receiver of a generated method: the header and the fields by name
(/repo/generator/segment_unmarshaler.go:266-293). -/
abbrev Receiver := Header × (Str → Option Val)

def Receiver.text (r : Receiver) (x : Str) : Option Str := (r.2 x).bind fun | .text s => some s | _ => none
def Receiver.number (r : Receiver) (x : Str) : Option Int := (r.2 x).bind fun | .number n => some n | _ => none
def Receiver.binary (r : Receiver) (x : Str) : Option Bytes := (r.2 x).bind fun | .binary b => some b | _ => none
def Receiver.date (r : Receiver) (x : Str) : Option Time.Civil := (r.2 x).bind fun | .date d => some d | _ => none
def Receiver.amount (r : Receiver) (x : Str) : Option Amount := (r.2 x).bind fun | .amount a => some a | _ => none
def Receiver.balance (r : Receiver) (x : Str) : Option Balance := (r.2 x).bind fun | .balance b => some b | _ => none
def Receiver.bankId (r : Receiver) (x : Str) : Option (Option Int × Str) :=
  (r.2 x).bind fun | .bankId b => some b | _ => none
def Receiver.account (r : Receiver) (x : Str) : Option AccountConnection :=
  (r.2 x).bind fun | .account c => some c | _ => none
def Receiver.international (r : Receiver) (x : Str) : Option ReadInternational :=
  (r.2 x).bind fun | .international c => some c | _ => none
def Receiver.numbers (r : Receiver) (x : Str) : Option (List Int) := (r.2 x).bind fun | .numbers l => some l | _ => none
def Receiver.transactions (r : Receiver) (x : Str) : Option (List BusinessTransaction) :=
  (r.2 x).bind fun | .transactions l => some l | _ => none
def Receiver.reference (r : Receiver) (x : Str) : Option (Str × Int) :=
  (r.2 x).bind fun | .reference p => some p | _ => none
def Receiver.acknowledgement (r : Receiver) (x : Str) : Option AckEntry :=
  (r.2 x).bind fun | .acknowledgement a => some a | _ => none
def Receiver.pinParams (r : Receiver) (x : Str) : Option PinParams :=
  (r.2 x).bind fun | .pinParams p => some p | _ => none
def Receiver.tanParams (r : Receiver) (x : Str) : Option TanParams :=
  (r.2 x).bind fun | .tanParams p => some p | _ => none

/-! ## Segments by the names of their fields -/

/-- /repo/segment/message_header.go:29-36. -/
def asMessageHeader (r : Receiver) : BankSeg :=
  .messageHeader ⟨r.1, r.number c!"Size", r.number c!"HBCIVersion", r.text c!"DialogID", r.number c!"Number", r.reference c!"Ref"⟩

/-- /repo/segment/encrypted_data.go:15-18. -/
def asEncryptedData (r : Receiver) : BankSeg := .encryptedData (r.1, r.binary c!"Data")

/-- /repo/segment/sync.go:103-108 and :135-140. -/
def asSync (r : Receiver) : BankSeg :=
  .sync ⟨r.1, r.text c!"ClientSystemIDResponse", r.number c!"MessageNumberResponse", r.number c!"SignatureIDResponse"⟩

/-- /repo/segment/common_bank_parameter_data.go:27-35 and :68-78. -/
def asBankParams (r : Receiver) : BankSeg :=
  .bankParams ⟨r.1, r.number c!"BPDVersion", r.bankId c!"BankID", r.text c!"BankName", r.number c!"BusinessTransactionCount",
    r.numbers c!"SupportedLanguages", r.numbers c!"SupportedHBCIVersions", r.number c!"MaxMessageSize",
    r.number c!"MinTimeoutValue", r.number c!"MaxTimeoutValue"⟩

/-- /repo/segment/user_parameter_data.go:25-39, :62-77 and :102-117; `v` is the version of the type. -/
def asUserParams (v : Nat) (r : Receiver) : BankSeg :=
  .userParams ⟨r.1, v, r.text c!"UserID", r.number c!"UPDVersion", r.number c!"UPDUsage", r.text c!"UserName",
    r.text c!"CommonExtensions"⟩

/-- /repo/segment/basic_account_information.go:26-36, :80-91, :139-152 and :202-215; `v` is the version of the
type. -/
def asAccount (v : Nat) (r : Receiver) : BankSeg :=
  .account ⟨r.1, v, r.account c!"AccountConnection", r.text c!"UserID", r.text c!"AccountCurrency", r.text c!"Name1",
    r.text c!"Name2", r.text c!"AccountProductID", r.transactions c!"AllowedBusinessTransactions"⟩

/-- /repo/segment/pin_bpd.go:23-31. -/
def asPinParams (r : Receiver) : BankSeg := .pinParams ⟨r.1, r.pinParams c!"PinTanSpecificParams"⟩

/-- /repo/segment/tan_bpd.go:23-29. -/
def asTanParams (r : Receiver) : BankSeg := .tanParams ⟨r.1, r.tanParams c!"Tan2StepSubmissionParameter"⟩

/-- /repo/segment/tan.go:136-144. -/
def asTanResponse (r : Receiver) : BankSeg :=
  .tanResponse ⟨r.1, r.text c!"TANProcess", r.binary c!"JobHash", r.text c!"JobReference"⟩

/-- /repo/segment/bank_announcement.go:9-13. -/
def asAnnouncement (r : Receiver) : BankSeg := .announcement ⟨r.1, r.text c!"Subject", r.text c!"Body"⟩

/-- /repo/segment/account_transaction.go:232-236, :254-258 and :276-280. -/
def asStatement (r : Receiver) : BankSeg :=
  .statement ⟨r.1, r.binary c!"BookedTransactions", r.binary c!"UnbookedTransactions"⟩

/-- /repo/segment/account_balance.go:205-218, :281-294, :357-370 and :468-482; `c` is the connection, which is
national or international. -/
def balanceOf {κ : Type} (c : Option κ) (r : Receiver) : BalanceSeg κ :=
  ⟨r.1, c, r.text c!"AccountProductName", r.text c!"AccountCurrency", r.balance c!"BookedBalance",
    r.balance c!"EarmarkedBalance", r.amount c!"CreditLimit", r.amount c!"AvailableAmount", r.amount c!"UsedAmount",
    r.date c!"BookingDate", r.date c!"BookingTime", r.date c!"DueDate", r.amount c!"SeizableAfterMonth"⟩

/-- /repo/segment/account_balance.go:205-218 and :281-294. -/
def asBalance (r : Receiver) : BankSeg := .balance (balanceOf (r.account c!"AccountConnection") r)

/-- /repo/segment/account_balance.go:357-370 and :468-482. -/
def asInternationalBalance (r : Receiver) : BankSeg :=
  .internationalBalance (balanceOf (r.international c!"AccountConnection") r)

/-- /repo/segment/status_protocol.go:112-119 and :152-159. -/
def asStatus (r : Receiver) : BankSeg :=
  .status ⟨r.1, r.reference c!"ReferencingMessage", r.number c!"ReferencingSegment", r.date c!"Date", r.date c!"Time",
    r.acknowledgement c!"Acknowledgement"⟩

/-- A segment of which nothing but the header is read (/repo/segment/message_end.go:15-18 for example). -/
def asUnread (r : Receiver) : BankSeg := .unread r.1

/-! ## The registered segments -/

/-- A segment with a generated reader: its ID and version, the source file and the type in it, and the segment
that its fields make (/repo/segment/account_balance_unmarshaler.go:19-28 registers four of them, for example). -/
structure Source where
  id : Str
  version : Int
  file : File
  type : Str
  seg : Receiver → BankSeg

/-- The types registered in the `init` functions of the generated files, for example
/repo/segment/account_balance_unmarshaler.go:19-28. -/
def sources : List Source :=
  [⟨c!"HNHBK", 3, messageHeaderFile, c!"MessageHeaderSegment", asMessageHeader⟩,
   ⟨c!"HNHBS", 1, messageEndFile, c!"MessageEndSegment", asUnread⟩,
   ⟨c!"HNVSK", 2, encryptionHeaderFile, c!"EncryptionHeaderV2", asUnread⟩,
   ⟨c!"HNVSK", 3, encryptionHeaderFile, c!"EncryptionHeaderSegmentV3", asUnread⟩,
   ⟨c!"HNVSD", 1, encryptedDataFile, c!"EncryptedDataSegment", asEncryptedData⟩,
   ⟨c!"HNSHK", 3, signatureHeaderFile, c!"SignatureHeaderV3", asUnread⟩,
   ⟨c!"HNSHK", 4, signatureHeaderFile, c!"SignatureHeaderSegmentV4", asUnread⟩,
   ⟨c!"HNSHA", 1, signatureEndFile, c!"SignatureEndV1", asUnread⟩,
   ⟨c!"HNSHA", 2, signatureEndFile, c!"SignatureEndV2", asUnread⟩,
   ⟨c!"HISYN", 3, syncSourceFile, c!"SynchronisationResponseSegmentV3", asSync⟩,
   ⟨c!"HISYN", 4, syncSourceFile, c!"SynchronisationResponseSegmentV4", asSync⟩,
   ⟨c!"HIBPA", 2, commonBankParameterDataFile, c!"CommonBankParameterV2", asBankParams⟩,
   ⟨c!"HIBPA", 3, commonBankParameterDataFile, c!"CommonBankParameterV3", asBankParams⟩,
   ⟨c!"HIUPA", 2, userParameterDataFile, c!"CommonUserParameterDataV2", asUserParams 2⟩,
   ⟨c!"HIUPA", 3, userParameterDataFile, c!"CommonUserParameterDataV3", asUserParams 3⟩,
   ⟨c!"HIUPA", 4, userParameterDataFile, c!"CommonUserParameterDataV4", asUserParams 4⟩,
   ⟨c!"HIUPD", 4, basicAccountInformationFile, c!"AccountInformationV4", asAccount 4⟩,
   ⟨c!"HIUPD", 5, basicAccountInformationFile, c!"AccountInformationV5", asAccount 5⟩,
   ⟨c!"HIUPD", 6, basicAccountInformationFile, c!"AccountInformationV6", asAccount 6⟩,
   ⟨c!"HIUPD", 7, basicAccountInformationFile, c!"AccountInformationV7", asAccount 7⟩,
   ⟨c!"HIPINS", 1, pinBpdFile, c!"PinTanBankParameterV1", asPinParams⟩,
   ⟨c!"HITANS", 6, tanBpdFile, c!"TanBankParameterV6", asTanParams⟩,
   ⟨c!"HITAN", 6, tanFile, c!"TanResponseSegmentV6", asTanResponse⟩,
   ⟨c!"HIKIM", 2, bankAnnouncementFile, c!"BankAnnouncementSegment", asAnnouncement⟩,
   ⟨c!"HIKAZ", 5, accountTransactionFile, c!"AccountTransactionResponseSegmentV5", asStatement⟩,
   ⟨c!"HIKAZ", 6, accountTransactionFile, c!"AccountTransactionResponseSegmentV6", asStatement⟩,
   ⟨c!"HIKAZ", 7, accountTransactionFile, c!"AccountTransactionResponseSegmentV7", asStatement⟩,
   ⟨c!"HISAL", 5, accountBalanceFile, c!"AccountBalanceResponseSegmentV5", asBalance⟩,
   ⟨c!"HISAL", 6, accountBalanceFile, c!"AccountBalanceResponseSegmentV6", asBalance⟩,
   ⟨c!"HISAL", 7, accountBalanceFile, c!"AccountBalanceResponseSegmentV7", asInternationalBalance⟩,
   ⟨c!"HISAL", 8, accountBalanceFile, c!"AccountBalanceResponseSegmentV8", asInternationalBalance⟩,
   ⟨c!"HIPRO", 3, statusProtocolFile, c!"StatusProtocolResponseSegmentV3", asStatus⟩,
   ⟨c!"HIPRO", 4, statusProtocolFile, c!"StatusProtocolResponseSegmentV4", asStatus⟩,
   ⟨c!"HIKIF", 1, accountInformationFile, c!"AccountInformationResponseSegment", asUnread⟩,
   ⟨c!"HIKOM", 3, communicationAccessFile, c!"CommunicationAccessResponseSegment", asUnread⟩,
   ⟨c!"HIKPV", 1, supportedCompressionMethodFile, c!"CompressionMethodSegment", asUnread⟩,
   ⟨c!"HISHV", 2, supportedSecurityMethodFile, c!"SecurityMethodSegment", asUnread⟩]

end Verif.Generator

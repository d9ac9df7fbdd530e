import Verif.Generator.Readers
import Verif.Generator.Flags
import Verif.Bank.Wrappers

/-
The lines `go:generate` of the package segment for segments with several versions.  Only the text of the flag is
taken over; `go generate` passes it with its quotes.
-/

namespace Verif.Generator

open GoLib Element Segment Message Bank

/-- A segment with several versions: its ID, its source file, the flag `-segment_versions` of its line
`go:generate`, and the reader that is checked in. -/
structure Versioned where
  id : Str
  file : File
  flag : Bytes
  read : Bytes → Outcome BankSeg

/-- /repo/segment/account_balance.go:193. -/
def versionedHISAL : Versioned :=
  ⟨c!"HISAL", accountBalanceFile,
    b!"\"AccountBalanceResponseSegmentV5:5:Segment,AccountBalanceResponseSegmentV6:6:Segment,AccountBalanceResponseSegmentV7:7:Segment,AccountBalanceResponseSegmentV8:8:Segment\"", readBalance⟩

/-- /repo/segment/account_transaction.go:226. -/
def versionedHIKAZ : Versioned :=
  ⟨c!"HIKAZ", accountTransactionFile,
    b!"\"AccountTransactionResponseSegmentV5:5:Segment,AccountTransactionResponseSegmentV6:6:Segment,AccountTransactionResponseSegmentV7:7:Segment\"", readTransactions⟩

/-- /repo/segment/basic_account_information.go:15. -/
def versionedHIUPD : Versioned :=
  ⟨c!"HIUPD", basicAccountInformationFile,
    b!"\"AccountInformationV4:4:Segment,AccountInformationV5:5:Segment,AccountInformationV6:6:Segment,AccountInformationV7:7:Segment\"", readAccount⟩

/-- /repo/segment/common_bank_parameter_data.go:15. -/
def versionedHIBPA : Versioned :=
  ⟨c!"HIBPA", commonBankParameterDataFile,
    b!"\"CommonBankParameterV2:2,CommonBankParameterV3:3\"", readBankParams⟩

/-- /repo/segment/encryption_header.go:56. -/
def versionedHNVSK : Versioned :=
  ⟨c!"HNVSK", encryptionHeaderFile,
    b!"\"EncryptionHeaderV2:2:ClientSegment,EncryptionHeaderSegmentV3:3:ClientSegment\"", readEncryptionHeader⟩

/-- /repo/segment/pin_bpd.go:15. -/
def versionedHIPINS : Versioned :=
  ⟨c!"HIPINS", pinBpdFile,
    b!"\"PinTanBankParameterV1:1:Segment\"", readPinParams⟩

/-- /repo/segment/signature_end.go:27. -/
def versionedHNSHA : Versioned :=
  ⟨c!"HNSHA", signatureEndFile,
    b!"\"SignatureEndV1:1:ClientSegment,SignatureEndV2:2:ClientSegment\"", readSignatureEnd⟩

/-- /repo/segment/signature_header.go:77. -/
def versionedHNSHK : Versioned :=
  ⟨c!"HNSHK", signatureHeaderFile,
    b!"\"SignatureHeaderV3:3:ClientSegment,SignatureHeaderSegmentV4:4:ClientSegment\"", readSignatureHeader⟩

/-- /repo/segment/status_protocol.go:106. -/
def versionedHIPRO : Versioned :=
  ⟨c!"HIPRO", statusProtocolFile,
    b!"\"StatusProtocolResponseSegmentV3:3:Segment,StatusProtocolResponseSegmentV4:4:Segment\"", readStatus⟩

/-- /repo/segment/sync.go:90. -/
def versionedHISYN : Versioned :=
  ⟨c!"HISYN", syncSourceFile,
    b!"\"SynchronisationResponseSegmentV3:3,SynchronisationResponseSegmentV4:4\"", readSync⟩

/-- /repo/segment/tan_bpd.go:14. -/
def versionedHITANS : Versioned :=
  ⟨c!"HITANS", tanBpdFile,
    b!"\"TanBankParameterV6:6:Segment\"", readTanParams⟩

/-- /repo/segment/tan.go:129. -/
def versionedHITAN : Versioned :=
  ⟨c!"HITAN", tanFile,
    b!"\"TanResponseSegmentV6:6:Segment\"", readTan⟩

/-- /repo/segment/user_parameter_data.go:10. -/
def versionedHIUPA : Versioned :=
  ⟨c!"HIUPA", userParameterDataFile,
    b!"\"CommonUserParameterDataV2:2:Segment,CommonUserParameterDataV3:3:Segment,CommonUserParameterDataV4:4:Segment\"", readUserParams⟩

/-- All of them: the lines with `-segment_versions` in /repo/segment, for example
/repo/segment/tan.go:129. -/
def versioned : List Versioned :=
  [versionedHISAL, versionedHIKAZ, versionedHIUPD, versionedHIBPA, versionedHNVSK, versionedHIPINS, versionedHNSHA,
   versionedHNSHK, versionedHIPRO, versionedHISYN, versionedHITANS, versionedHITAN, versionedHIUPA]

end Verif.Generator

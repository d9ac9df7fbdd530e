import Verif.Bank.Segments

/-
Model of the generated `UnmarshalHBCI` of segments that exist in several versions
(segment/*_unmarshaler.go): they read the header and leave the rest to the version it names.
-/

namespace Verif.Bank

open GoLib Element Segment Message

/-- The common text of these functions, e.g. /repo/segment/sync_unmarshaler.go:24-53: the elements, the
header (`elements[0]` panics if there is none), a switch over the version. -/
def byVersion (cases : List (Int × (Bytes → Outcome BankSeg))) (b : Bytes) : Outcome BankSeg :=
  (Segment.extractElements b).bind fun es =>
    match es with
    | [] => .panic
    | hb :: _ =>
      (unmarshalHeader hb).bind fun h =>
        match cases.find? fun c => c.1 == h.version with
        | some c => c.2 b
        | none => .err

/-- /repo/segment/account_balance_unmarshaler.go:30-71. -/
def readBalance := byVersion
  [(5, fun b => (unmarshalBalanceSeg unmarshalAccountConnection b).map' .balance),
   (6, fun b => (unmarshalBalanceSeg unmarshalAccountConnection b).map' .balance),
   (7, fun b => (unmarshalBalanceSeg readInternational b).map' .internationalBalance),
   (8, fun b => (unmarshalBalanceSegV8 b).map' .internationalBalance)]

/-- /repo/segment/account_transaction_unmarshaler.go:27-62. -/
def readTransactions := byVersion
  [(5, fun b => (unmarshalStatement b).map' .statement), (6, fun b => (unmarshalStatement b).map' .statement),
   (7, fun b => (unmarshalStatement b).map' .statement)]

/-- /repo/segment/basic_account_information_unmarshaler.go:30-71. -/
def readAccount := byVersion
  [(4, fun b => (unmarshalAccountV4 b).map' .account), (5, fun b => (unmarshalAccountV5 b).map' .account),
   (6, fun b => (unmarshalAccount 6 b).map' .account), (7, fun b => (unmarshalAccount 7 b).map' .account)]

/-- /repo/segment/common_bank_parameter_data_unmarshaler.go:24-53. -/
def readBankParams := byVersion
  [(2, fun b => (unmarshalBankParamsV2 b).map' .bankParams), (3, fun b => (unmarshalBankParamsV3 b).map' .bankParams)]

/-- /repo/segment/encryption_header_unmarshaler.go:24-53. -/
def readEncryptionHeader := byVersion
  [(2, fun b => (unmarshalEncryptionV2 b).map' .unread), (3, fun b => (unmarshalEncryptionV3 b).map' .unread)]

/-- /repo/segment/pin_bpd_unmarshaler.go:21-44. -/
def readPinParams := byVersion [(1, fun b => (unmarshalPinParamsSeg b).map' .pinParams)]

/-- /repo/segment/signature_end_unmarshaler.go:24-53. -/
def readSignatureEnd := byVersion
  [(1, fun b => (unmarshalSignatureEndV1 b).map' .unread), (2, fun b => (unmarshalSignatureEndV2 b).map' .unread)]

/-- /repo/segment/signature_header_unmarshaler.go:24-53. -/
def readSignatureHeader := byVersion
  [(3, fun b => (unmarshalSignatureV3 b).map' .unread), (4, fun b => (unmarshalSignatureV4 b).map' .unread)]

/-- /repo/segment/status_protocol_unmarshaler.go:24-53. -/
def readStatus := byVersion
  [(3, fun b => (unmarshalStatus b).map' .status), (4, fun b => (unmarshalStatus b).map' .status)]

/-- /repo/segment/sync_unmarshaler.go:24-53. -/
def readSync := byVersion
  [(3, fun b => (unmarshalSync b).map' .sync), (4, fun b => (unmarshalSync b).map' .sync)]

/-- /repo/segment/tan_bpd_unmarshaler.go:21-44. -/
def readTanParams := byVersion [(6, fun b => (unmarshalTanParamsSeg b).map' .tanParams)]

/-- /repo/segment/tan_unmarshaler.go:21-44. -/
def readTan := byVersion [(6, fun b => (unmarshalTanResponse b).map' .tanResponse)]

/-- /repo/segment/user_parameter_data_unmarshaler.go:27-62. -/
def readUserParams := byVersion
  [(2, fun b => (unmarshalUserParamsV2 b).map' .userParams), (3, fun b => (unmarshalUserParams 3 b).map' .userParams),
   (4, fun b => (unmarshalUserParams 4 b).map' .userParams)]

end Verif.Bank

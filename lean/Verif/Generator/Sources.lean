import Verif.Generator.Model

/-
The source files of the segments with a generated unmarshaler, as far as the generator looks at them: types,
structs, methods and the lists returned by `elements()`. Comments and tags are left out: the generator does not
look at them. This module was written by a script from the files in /repo/segment.
-/

namespace Verif.Generator

open GoLib

/-- /repo/segment/account_balance.go:1-583. -/
def accountBalanceFile : File where
  types :=
    [(c!"AccountBalanceRequest", []),
     (c!"AccountBalanceRequestSegmentV5",
      [⟨[], none⟩,
       ⟨[c!"AccountConnection"], some c!"element.AccountConnectionDataElement"⟩,
       ⟨[c!"AllAccounts"], some c!"element.BooleanDataElement"⟩,
       ⟨[c!"MaxEntries"], some c!"element.NumberDataElement"⟩,
       ⟨[c!"ContinuationReference"], some c!"element.AlphaNumericDataElement"⟩]),
     (c!"AccountBalanceRequestSegmentV6",
      [⟨[], none⟩,
       ⟨[c!"AccountConnection"], some c!"element.AccountConnectionDataElement"⟩,
       ⟨[c!"AllAccounts"], some c!"element.BooleanDataElement"⟩,
       ⟨[c!"MaxEntries"], some c!"element.NumberDataElement"⟩,
       ⟨[c!"ContinuationReference"], some c!"element.AlphaNumericDataElement"⟩]),
     (c!"AccountBalanceRequestSegmentV7",
      [⟨[], none⟩,
       ⟨[c!"AccountConnection"], some c!"element.InternationalAccountConnectionDataElement"⟩,
       ⟨[c!"AllAccounts"], some c!"element.BooleanDataElement"⟩,
       ⟨[c!"MaxEntries"], some c!"element.NumberDataElement"⟩,
       ⟨[c!"ContinuationReference"], some c!"element.AlphaNumericDataElement"⟩]),
     (c!"AccountBalanceRequestSegmentV8",
      [⟨[], none⟩,
       ⟨[c!"AccountConnection"], some c!"element.InternationalAccountConnectionDataElement"⟩,
       ⟨[c!"AllAccounts"], some c!"element.BooleanDataElement"⟩,
       ⟨[c!"MaxEntries"], some c!"element.NumberDataElement"⟩,
       ⟨[c!"ContinuationReference"], some c!"element.AlphaNumericDataElement"⟩]),
     (c!"AccountBalanceResponse", []),
     (c!"AccountBalanceResponseSegment",
      [⟨[], none⟩]),
     (c!"AccountBalanceResponseSegmentV5",
      [⟨[], none⟩,
       ⟨[c!"AccountConnection"], some c!"element.AccountConnectionDataElement"⟩,
       ⟨[c!"AccountProductName"], some c!"element.AlphaNumericDataElement"⟩,
       ⟨[c!"AccountCurrency"], some c!"element.CurrencyDataElement"⟩,
       ⟨[c!"BookedBalance"], some c!"element.BalanceDataElement"⟩,
       ⟨[c!"EarmarkedBalance"], some c!"element.BalanceDataElement"⟩,
       ⟨[c!"CreditLimit"], some c!"element.AmountDataElement"⟩,
       ⟨[c!"AvailableAmount"], some c!"element.AmountDataElement"⟩,
       ⟨[c!"UsedAmount"], some c!"element.AmountDataElement"⟩,
       ⟨[c!"BookingDate"], some c!"element.DateDataElement"⟩,
       ⟨[c!"BookingTime"], some c!"element.TimeDataElement"⟩,
       ⟨[c!"DueDate"], some c!"element.DateDataElement"⟩]),
     (c!"AccountBalanceResponseSegmentV6",
      [⟨[], none⟩,
       ⟨[c!"AccountConnection"], some c!"element.AccountConnectionDataElement"⟩,
       ⟨[c!"AccountProductName"], some c!"element.AlphaNumericDataElement"⟩,
       ⟨[c!"AccountCurrency"], some c!"element.CurrencyDataElement"⟩,
       ⟨[c!"BookedBalance"], some c!"element.BalanceDataElement"⟩,
       ⟨[c!"EarmarkedBalance"], some c!"element.BalanceDataElement"⟩,
       ⟨[c!"CreditLimit"], some c!"element.AmountDataElement"⟩,
       ⟨[c!"AvailableAmount"], some c!"element.AmountDataElement"⟩,
       ⟨[c!"UsedAmount"], some c!"element.AmountDataElement"⟩,
       ⟨[c!"BookingDate"], some c!"element.DateDataElement"⟩,
       ⟨[c!"BookingTime"], some c!"element.TimeDataElement"⟩,
       ⟨[c!"DueDate"], some c!"element.DateDataElement"⟩]),
     (c!"AccountBalanceResponseSegmentV7",
      [⟨[], none⟩,
       ⟨[c!"AccountConnection"], some c!"element.InternationalAccountConnectionDataElement"⟩,
       ⟨[c!"AccountProductName"], some c!"element.AlphaNumericDataElement"⟩,
       ⟨[c!"AccountCurrency"], some c!"element.CurrencyDataElement"⟩,
       ⟨[c!"BookedBalance"], some c!"element.BalanceDataElement"⟩,
       ⟨[c!"EarmarkedBalance"], some c!"element.BalanceDataElement"⟩,
       ⟨[c!"CreditLimit"], some c!"element.AmountDataElement"⟩,
       ⟨[c!"AvailableAmount"], some c!"element.AmountDataElement"⟩,
       ⟨[c!"UsedAmount"], some c!"element.AmountDataElement"⟩,
       ⟨[c!"BookingDate"], some c!"element.DateDataElement"⟩,
       ⟨[c!"BookingTime"], some c!"element.TimeDataElement"⟩,
       ⟨[c!"DueDate"], some c!"element.DateDataElement"⟩]),
     (c!"AccountBalanceResponseSegmentV8",
      [⟨[], none⟩,
       ⟨[c!"AccountConnection"], some c!"element.InternationalAccountConnectionDataElement"⟩,
       ⟨[c!"AccountProductName"], some c!"element.AlphaNumericDataElement"⟩,
       ⟨[c!"AccountCurrency"], some c!"element.CurrencyDataElement"⟩,
       ⟨[c!"BookedBalance"], some c!"element.BalanceDataElement"⟩,
       ⟨[c!"EarmarkedBalance"], some c!"element.BalanceDataElement"⟩,
       ⟨[c!"CreditLimit"], some c!"element.AmountDataElement"⟩,
       ⟨[c!"AvailableAmount"], some c!"element.AmountDataElement"⟩,
       ⟨[c!"UsedAmount"], some c!"element.AmountDataElement"⟩,
       ⟨[c!"BookingDate"], some c!"element.DateDataElement"⟩,
       ⟨[c!"BookingTime"], some c!"element.TimeDataElement"⟩,
       ⟨[c!"DueDate"], some c!"element.DateDataElement"⟩,
       ⟨[c!"SeizableAfterMonth"], some c!"element.AmountDataElement"⟩])]
  methods :=
    [⟨c!"Version", some c!"AccountBalanceRequestSegmentV5", .otherwise⟩,
     ⟨c!"ID", some c!"AccountBalanceRequestSegmentV5", .otherwise⟩,
     ⟨c!"referencedId", some c!"AccountBalanceRequestSegmentV5", .otherwise⟩,
     ⟨c!"sender", some c!"AccountBalanceRequestSegmentV5", .otherwise⟩,
     ⟨c!"elements", some c!"AccountBalanceRequestSegmentV5", .literal
        [.field c!"AccountConnection" 75,
         .field c!"AllAccounts" 76,
         .field c!"MaxEntries" 77,
         .field c!"ContinuationReference" 78]⟩,
     ⟨c!"SetContinuationMark", some c!"AccountBalanceRequestSegmentV5", .otherwise⟩,
     ⟨c!"Version", some c!"AccountBalanceRequestSegmentV6", .otherwise⟩,
     ⟨c!"ID", some c!"AccountBalanceRequestSegmentV6", .otherwise⟩,
     ⟨c!"referencedId", some c!"AccountBalanceRequestSegmentV6", .otherwise⟩,
     ⟨c!"sender", some c!"AccountBalanceRequestSegmentV6", .otherwise⟩,
     ⟨c!"elements", some c!"AccountBalanceRequestSegmentV6", .literal
        [.field c!"AccountConnection" 110,
         .field c!"AllAccounts" 111,
         .field c!"MaxEntries" 112,
         .field c!"ContinuationReference" 113]⟩,
     ⟨c!"SetContinuationMark", some c!"AccountBalanceRequestSegmentV6", .otherwise⟩,
     ⟨c!"Version", some c!"AccountBalanceRequestSegmentV7", .otherwise⟩,
     ⟨c!"ID", some c!"AccountBalanceRequestSegmentV7", .otherwise⟩,
     ⟨c!"referencedId", some c!"AccountBalanceRequestSegmentV7", .otherwise⟩,
     ⟨c!"sender", some c!"AccountBalanceRequestSegmentV7", .otherwise⟩,
     ⟨c!"elements", some c!"AccountBalanceRequestSegmentV7", .literal
        [.field c!"AccountConnection" 145,
         .field c!"AllAccounts" 146,
         .field c!"MaxEntries" 147,
         .field c!"ContinuationReference" 148]⟩,
     ⟨c!"SetContinuationMark", some c!"AccountBalanceRequestSegmentV7", .otherwise⟩,
     ⟨c!"Version", some c!"AccountBalanceRequestSegmentV8", .otherwise⟩,
     ⟨c!"ID", some c!"AccountBalanceRequestSegmentV8", .otherwise⟩,
     ⟨c!"referencedId", some c!"AccountBalanceRequestSegmentV8", .otherwise⟩,
     ⟨c!"sender", some c!"AccountBalanceRequestSegmentV8", .otherwise⟩,
     ⟨c!"elements", some c!"AccountBalanceRequestSegmentV8", .literal
        [.field c!"AccountConnection" 180,
         .field c!"AllAccounts" 181,
         .field c!"MaxEntries" 182,
         .field c!"ContinuationReference" 183]⟩,
     ⟨c!"SetContinuationMark", some c!"AccountBalanceRequestSegmentV8", .otherwise⟩,
     ⟨c!"Version", some c!"AccountBalanceResponseSegmentV5", .otherwise⟩,
     ⟨c!"ID", some c!"AccountBalanceResponseSegmentV5", .otherwise⟩,
     ⟨c!"referencedId", some c!"AccountBalanceResponseSegmentV5", .otherwise⟩,
     ⟨c!"sender", some c!"AccountBalanceResponseSegmentV5", .otherwise⟩,
     ⟨c!"AccountBalance", some c!"AccountBalanceResponseSegmentV5", .otherwise⟩,
     ⟨c!"SepaAccountBalance", some c!"AccountBalanceResponseSegmentV5", .otherwise⟩,
     ⟨c!"elements", some c!"AccountBalanceResponseSegmentV5", .literal
        [.field c!"AccountConnection" 267,
         .field c!"AccountProductName" 268,
         .field c!"AccountCurrency" 269,
         .field c!"BookedBalance" 270,
         .field c!"EarmarkedBalance" 271,
         .field c!"CreditLimit" 272,
         .field c!"AvailableAmount" 273,
         .field c!"UsedAmount" 274,
         .field c!"BookingDate" 275,
         .field c!"BookingTime" 276,
         .field c!"DueDate" 277]⟩,
     ⟨c!"Version", some c!"AccountBalanceResponseSegmentV6", .otherwise⟩,
     ⟨c!"ID", some c!"AccountBalanceResponseSegmentV6", .otherwise⟩,
     ⟨c!"referencedId", some c!"AccountBalanceResponseSegmentV6", .otherwise⟩,
     ⟨c!"sender", some c!"AccountBalanceResponseSegmentV6", .otherwise⟩,
     ⟨c!"AccountBalance", some c!"AccountBalanceResponseSegmentV6", .otherwise⟩,
     ⟨c!"SepaAccountBalance", some c!"AccountBalanceResponseSegmentV6", .otherwise⟩,
     ⟨c!"elements", some c!"AccountBalanceResponseSegmentV6", .literal
        [.field c!"AccountConnection" 343,
         .field c!"AccountProductName" 344,
         .field c!"AccountCurrency" 345,
         .field c!"BookedBalance" 346,
         .field c!"EarmarkedBalance" 347,
         .field c!"CreditLimit" 348,
         .field c!"AvailableAmount" 349,
         .field c!"UsedAmount" 350,
         .field c!"BookingDate" 351,
         .field c!"BookingTime" 352,
         .field c!"DueDate" 353]⟩,
     ⟨c!"Version", some c!"AccountBalanceResponseSegmentV7", .otherwise⟩,
     ⟨c!"ID", some c!"AccountBalanceResponseSegmentV7", .otherwise⟩,
     ⟨c!"referencedId", some c!"AccountBalanceResponseSegmentV7", .otherwise⟩,
     ⟨c!"sender", some c!"AccountBalanceResponseSegmentV7", .otherwise⟩,
     ⟨c!"AccountBalance", some c!"AccountBalanceResponseSegmentV7", .otherwise⟩,
     ⟨c!"SepaAccountBalance", some c!"AccountBalanceResponseSegmentV7", .otherwise⟩,
     ⟨c!"elements", some c!"AccountBalanceResponseSegmentV7", .literal
        [.field c!"AccountConnection" 454,
         .field c!"AccountProductName" 455,
         .field c!"AccountCurrency" 456,
         .field c!"BookedBalance" 457,
         .field c!"EarmarkedBalance" 458,
         .field c!"CreditLimit" 459,
         .field c!"AvailableAmount" 460,
         .field c!"UsedAmount" 461,
         .field c!"BookingDate" 462,
         .field c!"BookingTime" 463,
         .field c!"DueDate" 464]⟩,
     ⟨c!"Version", some c!"AccountBalanceResponseSegmentV8", .otherwise⟩,
     ⟨c!"ID", some c!"AccountBalanceResponseSegmentV8", .otherwise⟩,
     ⟨c!"referencedId", some c!"AccountBalanceResponseSegmentV8", .otherwise⟩,
     ⟨c!"sender", some c!"AccountBalanceResponseSegmentV8", .otherwise⟩,
     ⟨c!"AccountBalance", some c!"AccountBalanceResponseSegmentV8", .otherwise⟩,
     ⟨c!"SepaAccountBalance", some c!"AccountBalanceResponseSegmentV8", .otherwise⟩,
     ⟨c!"elements", some c!"AccountBalanceResponseSegmentV8", .literal
        [.field c!"AccountConnection" 570,
         .field c!"AccountProductName" 571,
         .field c!"AccountCurrency" 572,
         .field c!"BookedBalance" 573,
         .field c!"EarmarkedBalance" 574,
         .field c!"CreditLimit" 575,
         .field c!"AvailableAmount" 576,
         .field c!"UsedAmount" 577,
         .field c!"BookingDate" 578,
         .field c!"BookingTime" 579,
         .field c!"DueDate" 580,
         .field c!"SeizableAfterMonth" 581]⟩]

/-- /repo/segment/account_information.go:1-269. -/
def accountInformationFile : File where
  types :=
    [(c!"AccountInformationRequest", []),
     (c!"AccountInformationRequestSegmentV1",
      [⟨[], none⟩,
       ⟨[c!"AccountConnection"], some c!"element.AccountConnectionDataElement"⟩,
       ⟨[c!"AllAccounts"], some c!"element.BooleanDataElement"⟩,
       ⟨[c!"MaxEntries"], some c!"element.NumberDataElement"⟩,
       ⟨[c!"ContinuationReference"], some c!"element.AlphaNumericDataElement"⟩]),
     (c!"AccountInformationRequestSegmentV2",
      [⟨[], none⟩,
       ⟨[c!"AccountConnection"], some c!"element.AccountConnectionDataElement"⟩,
       ⟨[c!"AllAccounts"], some c!"element.BooleanDataElement"⟩,
       ⟨[c!"MaxEntries"], some c!"element.NumberDataElement"⟩,
       ⟨[c!"ContinuationReference"], some c!"element.AlphaNumericDataElement"⟩]),
     (c!"AccountInformationRequestSegmentV3",
      [⟨[], none⟩,
       ⟨[c!"AccountConnection"], some c!"element.InternationalAccountConnectionDataElement"⟩,
       ⟨[c!"AllAccounts"], some c!"element.BooleanDataElement"⟩,
       ⟨[c!"MaxEntries"], some c!"element.NumberDataElement"⟩,
       ⟨[c!"ContinuationReference"], some c!"element.AlphaNumericDataElement"⟩]),
     (c!"AccountInformationRequestSegmentV4",
      [⟨[], none⟩,
       ⟨[c!"AccountConnection"], some c!"element.InternationalAccountConnectionDataElement"⟩,
       ⟨[c!"AllAccounts"], some c!"element.BooleanDataElement"⟩,
       ⟨[c!"MaxEntries"], some c!"element.NumberDataElement"⟩,
       ⟨[c!"ContinuationReference"], some c!"element.AlphaNumericDataElement"⟩]),
     (c!"AccountInformationRequestSegmentV5",
      [⟨[], none⟩,
       ⟨[c!"AccountConnection"], some c!"element.InternationalAccountConnectionDataElement"⟩,
       ⟨[c!"AllAccounts"], some c!"element.BooleanDataElement"⟩,
       ⟨[c!"MaxEntries"], some c!"element.NumberDataElement"⟩,
       ⟨[c!"ContinuationReference"], some c!"element.AlphaNumericDataElement"⟩]),
     (c!"AccountInformationRequestSegmentV6",
      [⟨[], none⟩,
       ⟨[c!"AccountConnection"], some c!"element.InternationalAccountConnectionDataElement"⟩,
       ⟨[c!"AllAccounts"], some c!"element.BooleanDataElement"⟩,
       ⟨[c!"MaxEntries"], some c!"element.NumberDataElement"⟩,
       ⟨[c!"ContinuationReference"], some c!"element.AlphaNumericDataElement"⟩]),
     (c!"AccountInformationResponseSegment",
      [⟨[], none⟩,
       ⟨[c!"AccountConnection"], some c!"element.AccountConnectionDataElement"⟩,
       ⟨[c!"AccountKind"], some c!"element.NumberDataElement"⟩,
       ⟨[c!"Name1"], some c!"element.AlphaNumericDataElement"⟩,
       ⟨[c!"Name2"], some c!"element.AlphaNumericDataElement"⟩,
       ⟨[c!"AccountProductID"], some c!"element.AlphaNumericDataElement"⟩,
       ⟨[c!"AccountCurrency"], some c!"element.CurrencyDataElement"⟩,
       ⟨[c!"OpeningDate"], some c!"element.DateDataElement"⟩,
       ⟨[c!"DebitInterest"], some c!"element.ValueDataElement"⟩,
       ⟨[c!"CreditInterest"], some c!"element.ValueDataElement"⟩,
       ⟨[c!"OverDebitInterest"], some c!"element.ValueDataElement"⟩,
       ⟨[c!"CreditLimit"], some c!"element.AmountDataElement"⟩,
       ⟨[c!"ReferenceAccount"], some c!"element.AccountConnectionDataElement"⟩,
       ⟨[c!"AccountStatementShippingType"], some c!"element.NumberDataElement"⟩,
       ⟨[c!"AccountStatementShippingRotation"], some c!"element.NumberDataElement"⟩,
       ⟨[c!"AdditionalInformation"], some c!"element.TextDataElement"⟩,
       ⟨[c!"DisposalEligiblePersons"], some c!"element.DisposalEligiblePersonsDataElement"⟩])]
  methods :=
    [⟨c!"Version", some c!"AccountInformationRequestSegmentV1", .otherwise⟩,
     ⟨c!"ID", some c!"AccountInformationRequestSegmentV1", .otherwise⟩,
     ⟨c!"referencedId", some c!"AccountInformationRequestSegmentV1", .otherwise⟩,
     ⟨c!"sender", some c!"AccountInformationRequestSegmentV1", .otherwise⟩,
     ⟨c!"elements", some c!"AccountInformationRequestSegmentV1", .literal
        [.field c!"AccountConnection" 37,
         .field c!"AllAccounts" 38,
         .field c!"MaxEntries" 39,
         .field c!"ContinuationReference" 40]⟩,
     ⟨c!"SetContinuationMark", some c!"AccountInformationRequestSegmentV1", .otherwise⟩,
     ⟨c!"Version", some c!"AccountInformationRequestSegmentV2", .otherwise⟩,
     ⟨c!"ID", some c!"AccountInformationRequestSegmentV2", .otherwise⟩,
     ⟨c!"referencedId", some c!"AccountInformationRequestSegmentV2", .otherwise⟩,
     ⟨c!"sender", some c!"AccountInformationRequestSegmentV2", .otherwise⟩,
     ⟨c!"elements", some c!"AccountInformationRequestSegmentV2", .literal
        [.field c!"AccountConnection" 72,
         .field c!"AllAccounts" 73,
         .field c!"MaxEntries" 74,
         .field c!"ContinuationReference" 75]⟩,
     ⟨c!"SetContinuationMark", some c!"AccountInformationRequestSegmentV2", .otherwise⟩,
     ⟨c!"Version", some c!"AccountInformationRequestSegmentV3", .otherwise⟩,
     ⟨c!"ID", some c!"AccountInformationRequestSegmentV3", .otherwise⟩,
     ⟨c!"referencedId", some c!"AccountInformationRequestSegmentV3", .otherwise⟩,
     ⟨c!"sender", some c!"AccountInformationRequestSegmentV3", .otherwise⟩,
     ⟨c!"elements", some c!"AccountInformationRequestSegmentV3", .literal
        [.field c!"AccountConnection" 107,
         .field c!"AllAccounts" 108,
         .field c!"MaxEntries" 109,
         .field c!"ContinuationReference" 110]⟩,
     ⟨c!"SetContinuationMark", some c!"AccountInformationRequestSegmentV3", .otherwise⟩,
     ⟨c!"Version", some c!"AccountInformationRequestSegmentV4", .otherwise⟩,
     ⟨c!"ID", some c!"AccountInformationRequestSegmentV4", .otherwise⟩,
     ⟨c!"referencedId", some c!"AccountInformationRequestSegmentV4", .otherwise⟩,
     ⟨c!"sender", some c!"AccountInformationRequestSegmentV4", .otherwise⟩,
     ⟨c!"elements", some c!"AccountInformationRequestSegmentV4", .literal
        [.field c!"AccountConnection" 142,
         .field c!"AllAccounts" 143,
         .field c!"MaxEntries" 144,
         .field c!"ContinuationReference" 145]⟩,
     ⟨c!"SetContinuationMark", some c!"AccountInformationRequestSegmentV4", .otherwise⟩,
     ⟨c!"Version", some c!"AccountInformationRequestSegmentV5", .otherwise⟩,
     ⟨c!"ID", some c!"AccountInformationRequestSegmentV5", .otherwise⟩,
     ⟨c!"referencedId", some c!"AccountInformationRequestSegmentV5", .otherwise⟩,
     ⟨c!"sender", some c!"AccountInformationRequestSegmentV5", .otherwise⟩,
     ⟨c!"elements", some c!"AccountInformationRequestSegmentV5", .literal
        [.field c!"AccountConnection" 177,
         .field c!"AllAccounts" 178,
         .field c!"MaxEntries" 179,
         .field c!"ContinuationReference" 180]⟩,
     ⟨c!"SetContinuationMark", some c!"AccountInformationRequestSegmentV5", .otherwise⟩,
     ⟨c!"Version", some c!"AccountInformationRequestSegmentV6", .otherwise⟩,
     ⟨c!"ID", some c!"AccountInformationRequestSegmentV6", .otherwise⟩,
     ⟨c!"referencedId", some c!"AccountInformationRequestSegmentV6", .otherwise⟩,
     ⟨c!"sender", some c!"AccountInformationRequestSegmentV6", .otherwise⟩,
     ⟨c!"elements", some c!"AccountInformationRequestSegmentV6", .literal
        [.field c!"AccountConnection" 212,
         .field c!"AllAccounts" 213,
         .field c!"MaxEntries" 214,
         .field c!"ContinuationReference" 215]⟩,
     ⟨c!"SetContinuationMark", some c!"AccountInformationRequestSegmentV6", .otherwise⟩,
     ⟨c!"Version", some c!"AccountInformationResponseSegment", .otherwise⟩,
     ⟨c!"ID", some c!"AccountInformationResponseSegment", .otherwise⟩,
     ⟨c!"referencedId", some c!"AccountInformationResponseSegment", .otherwise⟩,
     ⟨c!"sender", some c!"AccountInformationResponseSegment", .otherwise⟩,
     ⟨c!"elements", some c!"AccountInformationResponseSegment", .literal
        [.field c!"AccountConnection" 252,
         .field c!"AccountKind" 253,
         .field c!"Name1" 254,
         .field c!"Name2" 255,
         .field c!"AccountProductID" 256,
         .field c!"AccountCurrency" 257,
         .field c!"OpeningDate" 258,
         .field c!"DebitInterest" 259,
         .field c!"CreditInterest" 260,
         .field c!"OverDebitInterest" 261,
         .field c!"CreditLimit" 262,
         .field c!"ReferenceAccount" 263,
         .field c!"AccountStatementShippingType" 264,
         .field c!"AccountStatementShippingRotation" 265,
         .field c!"AdditionalInformation" 266,
         .field c!"DisposalEligiblePersons" 267]⟩]

/-- /repo/segment/account_transaction.go:1-296. -/
def accountTransactionFile : File where
  types :=
    [(c!"AccountTransactionRequestSegment",
      [⟨[], none⟩]),
     (c!"AccountTransactionRequest", []),
     (c!"AccountTransactionRequestV5",
      [⟨[], none⟩,
       ⟨[c!"Account"], some c!"element.AccountConnectionDataElement"⟩,
       ⟨[c!"AllAccounts"], some c!"element.BooleanDataElement"⟩,
       ⟨[c!"From"], some c!"element.DateDataElement"⟩,
       ⟨[c!"To"], some c!"element.DateDataElement"⟩,
       ⟨[c!"MaxEntries"], some c!"element.NumberDataElement"⟩,
       ⟨[c!"ContinuationReference"], some c!"element.AlphaNumericDataElement"⟩]),
     (c!"AccountTransactionRequestV6",
      [⟨[], none⟩,
       ⟨[c!"Account"], some c!"element.AccountConnectionDataElement"⟩,
       ⟨[c!"AllAccounts"], some c!"element.BooleanDataElement"⟩,
       ⟨[c!"From"], some c!"element.DateDataElement"⟩,
       ⟨[c!"To"], some c!"element.DateDataElement"⟩,
       ⟨[c!"MaxEntries"], some c!"element.NumberDataElement"⟩,
       ⟨[c!"ContinuationReference"], some c!"element.AlphaNumericDataElement"⟩]),
     (c!"AccountTransactionRequestV7",
      [⟨[], none⟩,
       ⟨[c!"InternationalAccount"], some c!"element.InternationalAccountConnectionDataElement"⟩,
       ⟨[c!"AllAccounts"], some c!"element.BooleanDataElement"⟩,
       ⟨[c!"From"], some c!"element.DateDataElement"⟩,
       ⟨[c!"To"], some c!"element.DateDataElement"⟩,
       ⟨[c!"MaxEntries"], some c!"element.NumberDataElement"⟩,
       ⟨[c!"ContinuationReference"], some c!"element.AlphaNumericDataElement"⟩]),
     (c!"AccountTransactionResponse", []),
     (c!"AccountTransactionResponseSegment",
      [⟨[], none⟩]),
     (c!"AccountTransactionResponseSegmentV5",
      [⟨[], none⟩,
       ⟨[c!"BookedTransactions"], some c!"element.SwiftMT940DataElement"⟩,
       ⟨[c!"UnbookedTransactions"], some c!"element.BinaryDataElement"⟩]),
     (c!"AccountTransactionResponseSegmentV6",
      [⟨[], none⟩,
       ⟨[c!"BookedTransactions"], some c!"element.SwiftMT940DataElement"⟩,
       ⟨[c!"UnbookedTransactions"], some c!"element.BinaryDataElement"⟩]),
     (c!"AccountTransactionResponseSegmentV7",
      [⟨[], none⟩,
       ⟨[c!"BookedTransactions"], some c!"element.SwiftMT940DataElement"⟩,
       ⟨[c!"UnbookedTransactions"], some c!"element.BinaryDataElement"⟩])]
  methods :=
    [⟨c!"SetContinuationReference", some c!"AccountTransactionRequestV5", .otherwise⟩,
     ⟨c!"SetTransactionRange", some c!"AccountTransactionRequestV5", .otherwise⟩,
     ⟨c!"Version", some c!"AccountTransactionRequestV5", .otherwise⟩,
     ⟨c!"ID", some c!"AccountTransactionRequestV5", .otherwise⟩,
     ⟨c!"referencedId", some c!"AccountTransactionRequestV5", .otherwise⟩,
     ⟨c!"sender", some c!"AccountTransactionRequestV5", .otherwise⟩,
     ⟨c!"elements", some c!"AccountTransactionRequestV5", .literal
        [.field c!"Account" 100,
         .field c!"AllAccounts" 101,
         .field c!"From" 102,
         .field c!"To" 103,
         .field c!"MaxEntries" 104,
         .field c!"ContinuationReference" 105]⟩,
     ⟨c!"SetContinuationReference", some c!"AccountTransactionRequestV6", .otherwise⟩,
     ⟨c!"SetTransactionRange", some c!"AccountTransactionRequestV6", .otherwise⟩,
     ⟨c!"Version", some c!"AccountTransactionRequestV6", .otherwise⟩,
     ⟨c!"ID", some c!"AccountTransactionRequestV6", .otherwise⟩,
     ⟨c!"referencedId", some c!"AccountTransactionRequestV6", .otherwise⟩,
     ⟨c!"sender", some c!"AccountTransactionRequestV6", .otherwise⟩,
     ⟨c!"elements", some c!"AccountTransactionRequestV6", .literal
        [.field c!"Account" 156,
         .field c!"AllAccounts" 157,
         .field c!"From" 158,
         .field c!"To" 159,
         .field c!"MaxEntries" 160,
         .field c!"ContinuationReference" 161]⟩,
     ⟨c!"SetContinuationReference", some c!"AccountTransactionRequestV7", .otherwise⟩,
     ⟨c!"SetTransactionRange", some c!"AccountTransactionRequestV7", .otherwise⟩,
     ⟨c!"Version", some c!"AccountTransactionRequestV7", .otherwise⟩,
     ⟨c!"ID", some c!"AccountTransactionRequestV7", .otherwise⟩,
     ⟨c!"referencedId", some c!"AccountTransactionRequestV7", .otherwise⟩,
     ⟨c!"sender", some c!"AccountTransactionRequestV7", .otherwise⟩,
     ⟨c!"elements", some c!"AccountTransactionRequestV7", .literal
        [.field c!"InternationalAccount" 212,
         .field c!"AllAccounts" 213,
         .field c!"From" 214,
         .field c!"To" 215,
         .field c!"MaxEntries" 216,
         .field c!"ContinuationReference" 217]⟩,
     ⟨c!"BookedSwiftTransactions", some c!"AccountTransactionResponseSegmentV5", .otherwise⟩,
     ⟨c!"Version", some c!"AccountTransactionResponseSegmentV5", .otherwise⟩,
     ⟨c!"ID", some c!"AccountTransactionResponseSegmentV5", .otherwise⟩,
     ⟨c!"referencedId", some c!"AccountTransactionResponseSegmentV5", .otherwise⟩,
     ⟨c!"sender", some c!"AccountTransactionResponseSegmentV5", .otherwise⟩,
     ⟨c!"elements", some c!"AccountTransactionResponseSegmentV5", .literal
        [.field c!"BookedTransactions" 249,
         .field c!"UnbookedTransactions" 250]⟩,
     ⟨c!"BookedSwiftTransactions", some c!"AccountTransactionResponseSegmentV6", .otherwise⟩,
     ⟨c!"Version", some c!"AccountTransactionResponseSegmentV6", .otherwise⟩,
     ⟨c!"ID", some c!"AccountTransactionResponseSegmentV6", .otherwise⟩,
     ⟨c!"referencedId", some c!"AccountTransactionResponseSegmentV6", .otherwise⟩,
     ⟨c!"sender", some c!"AccountTransactionResponseSegmentV6", .otherwise⟩,
     ⟨c!"elements", some c!"AccountTransactionResponseSegmentV6", .literal
        [.field c!"BookedTransactions" 271,
         .field c!"UnbookedTransactions" 272]⟩,
     ⟨c!"BookedSwiftTransactions", some c!"AccountTransactionResponseSegmentV7", .otherwise⟩,
     ⟨c!"Version", some c!"AccountTransactionResponseSegmentV7", .otherwise⟩,
     ⟨c!"ID", some c!"AccountTransactionResponseSegmentV7", .otherwise⟩,
     ⟨c!"referencedId", some c!"AccountTransactionResponseSegmentV7", .otherwise⟩,
     ⟨c!"sender", some c!"AccountTransactionResponseSegmentV7", .otherwise⟩,
     ⟨c!"elements", some c!"AccountTransactionResponseSegmentV7", .literal
        [.field c!"BookedTransactions" 293,
         .field c!"UnbookedTransactions" 294]⟩]

/-- /repo/segment/bank_announcement.go:1-25. -/
def bankAnnouncementFile : File where
  types :=
    [(c!"BankAnnouncementSegment",
      [⟨[], none⟩,
       ⟨[c!"Subject"], some c!"element.AlphaNumericDataElement"⟩,
       ⟨[c!"Body"], some c!"element.TextDataElement"⟩])]
  methods :=
    [⟨c!"Version", some c!"BankAnnouncementSegment", .otherwise⟩,
     ⟨c!"ID", some c!"BankAnnouncementSegment", .otherwise⟩,
     ⟨c!"referencedId", some c!"BankAnnouncementSegment", .otherwise⟩,
     ⟨c!"sender", some c!"BankAnnouncementSegment", .otherwise⟩,
     ⟨c!"elements", some c!"BankAnnouncementSegment", .literal
        [.field c!"Subject" 22,
         .field c!"Body" 23]⟩]

/-- /repo/segment/basic_account_information.go:1-263. -/
def basicAccountInformationFile : File where
  types :=
    [(c!"AccountInformation", []),
     (c!"AccountInformationSegment",
      [⟨[], none⟩]),
     (c!"accountInformationSegment", []),
     (c!"AccountInformationV4",
      [⟨[], none⟩,
       ⟨[c!"AccountConnection"], some c!"element.AccountConnectionDataElement"⟩,
       ⟨[c!"UserID"], some c!"element.IdentificationDataElement"⟩,
       ⟨[c!"AccountCurrency"], some c!"element.CurrencyDataElement"⟩,
       ⟨[c!"Name1"], some c!"element.AlphaNumericDataElement"⟩,
       ⟨[c!"Name2"], some c!"element.AlphaNumericDataElement"⟩,
       ⟨[c!"AccountProductID"], some c!"element.AlphaNumericDataElement"⟩,
       ⟨[c!"AccountLimit"], some c!"element.AccountLimitDataElement"⟩,
       ⟨[c!"AllowedBusinessTransactions"], some c!"element.AllowedBusinessTransactionsDataElement"⟩]),
     (c!"AccountInformationV5",
      [⟨[], none⟩,
       ⟨[c!"AccountConnection"], some c!"element.AccountConnectionDataElement"⟩,
       ⟨[c!"UserID"], some c!"element.IdentificationDataElement"⟩,
       ⟨[c!"AccountType"], some c!"element.NumberDataElement"⟩,
       ⟨[c!"AccountCurrency"], some c!"element.CurrencyDataElement"⟩,
       ⟨[c!"Name1"], some c!"element.AlphaNumericDataElement"⟩,
       ⟨[c!"Name2"], some c!"element.AlphaNumericDataElement"⟩,
       ⟨[c!"AccountProductID"], some c!"element.AlphaNumericDataElement"⟩,
       ⟨[c!"AccountLimit"], some c!"element.AccountLimitDataElement"⟩,
       ⟨[c!"AllowedBusinessTransactions"], some c!"element.AllowedBusinessTransactionsDataElement"⟩]),
     (c!"AccountInformationV6",
      [⟨[], none⟩,
       ⟨[c!"AccountConnection"], some c!"element.AccountConnectionDataElement"⟩,
       ⟨[c!"IBAN"], some c!"element.AlphaNumericDataElement"⟩,
       ⟨[c!"UserID"], some c!"element.IdentificationDataElement"⟩,
       ⟨[c!"AccountType"], some c!"element.NumberDataElement"⟩,
       ⟨[c!"AccountCurrency"], some c!"element.CurrencyDataElement"⟩,
       ⟨[c!"Name1"], some c!"element.AlphaNumericDataElement"⟩,
       ⟨[c!"Name2"], some c!"element.AlphaNumericDataElement"⟩,
       ⟨[c!"AccountProductID"], some c!"element.AlphaNumericDataElement"⟩,
       ⟨[c!"AccountLimit"], some c!"element.AccountLimitDataElement"⟩,
       ⟨[c!"AllowedBusinessTransactions"], some c!"element.AllowedBusinessTransactionsDataElement"⟩,
       ⟨[c!"AccountExtensions"], some c!"element.AlphaNumericDataElement"⟩]),
     (c!"AccountInformationV7",
      [⟨[], none⟩,
       ⟨[c!"AccountConnection"], some c!"element.AccountConnectionDataElement"⟩,
       ⟨[c!"IBAN"], some c!"element.AlphaNumericDataElement"⟩,
       ⟨[c!"UserID"], some c!"element.IdentificationDataElement"⟩,
       ⟨[c!"AccountType"], some c!"element.NumberDataElement"⟩,
       ⟨[c!"AccountCurrency"], some c!"element.CurrencyDataElement"⟩,
       ⟨[c!"Name1"], some c!"element.AlphaNumericDataElement"⟩,
       ⟨[c!"Name2"], some c!"element.AlphaNumericDataElement"⟩,
       ⟨[c!"AccountProductID"], some c!"element.AlphaNumericDataElement"⟩,
       ⟨[c!"AccountLimit"], some c!"element.AccountLimitDataElement"⟩,
       ⟨[c!"AllowedBusinessTransactions"], some c!"element.AllowedBusinessTransactionsDataElement"⟩,
       ⟨[c!"AccountExtensions"], some c!"element.AlphaNumericDataElement"⟩])]
  methods :=
    [⟨c!"Version", some c!"AccountInformationV4", .otherwise⟩,
     ⟨c!"ID", some c!"AccountInformationV4", .otherwise⟩,
     ⟨c!"referencedId", some c!"AccountInformationV4", .otherwise⟩,
     ⟨c!"sender", some c!"AccountInformationV4", .otherwise⟩,
     ⟨c!"Account", some c!"AccountInformationV4", .otherwise⟩,
     ⟨c!"elements", some c!"AccountInformationV4", .literal
        [.field c!"AccountConnection" 69,
         .field c!"UserID" 70,
         .field c!"AccountCurrency" 71,
         .field c!"Name1" 72,
         .field c!"Name2" 73,
         .field c!"AccountProductID" 74,
         .field c!"AccountLimit" 75,
         .field c!"AllowedBusinessTransactions" 76]⟩,
     ⟨c!"Version", some c!"AccountInformationV5", .otherwise⟩,
     ⟨c!"ID", some c!"AccountInformationV5", .otherwise⟩,
     ⟨c!"referencedId", some c!"AccountInformationV5", .otherwise⟩,
     ⟨c!"sender", some c!"AccountInformationV5", .otherwise⟩,
     ⟨c!"Account", some c!"AccountInformationV5", .otherwise⟩,
     ⟨c!"elements", some c!"AccountInformationV5", .literal
        [.field c!"AccountConnection" 127,
         .field c!"UserID" 128,
         .field c!"AccountType" 129,
         .field c!"AccountCurrency" 130,
         .field c!"Name1" 131,
         .field c!"Name2" 132,
         .field c!"AccountProductID" 133,
         .field c!"AccountLimit" 134,
         .field c!"AllowedBusinessTransactions" 135]⟩,
     ⟨c!"Version", some c!"AccountInformationV6", .otherwise⟩,
     ⟨c!"ID", some c!"AccountInformationV6", .otherwise⟩,
     ⟨c!"referencedId", some c!"AccountInformationV6", .otherwise⟩,
     ⟨c!"sender", some c!"AccountInformationV6", .otherwise⟩,
     ⟨c!"Account", some c!"AccountInformationV6", .otherwise⟩,
     ⟨c!"elements", some c!"AccountInformationV6", .literal
        [.field c!"AccountConnection" 188,
         .field c!"IBAN" 189,
         .field c!"UserID" 190,
         .field c!"AccountType" 191,
         .field c!"AccountCurrency" 192,
         .field c!"Name1" 193,
         .field c!"Name2" 194,
         .field c!"AccountProductID" 195,
         .field c!"AccountLimit" 196,
         .field c!"AllowedBusinessTransactions" 197,
         .field c!"AccountExtensions" 198]⟩,
     ⟨c!"Version", some c!"AccountInformationV7", .otherwise⟩,
     ⟨c!"ID", some c!"AccountInformationV7", .otherwise⟩,
     ⟨c!"referencedId", some c!"AccountInformationV7", .otherwise⟩,
     ⟨c!"sender", some c!"AccountInformationV7", .otherwise⟩,
     ⟨c!"Account", some c!"AccountInformationV7", .otherwise⟩,
     ⟨c!"elements", some c!"AccountInformationV7", .literal
        [.field c!"AccountConnection" 251,
         .field c!"IBAN" 252,
         .field c!"UserID" 253,
         .field c!"AccountType" 254,
         .field c!"AccountCurrency" 255,
         .field c!"Name1" 256,
         .field c!"Name2" 257,
         .field c!"AccountProductID" 258,
         .field c!"AccountLimit" 259,
         .field c!"AllowedBusinessTransactions" 260,
         .field c!"AccountExtensions" 261]⟩]

/-- /repo/segment/common_bank_parameter_data.go:1-116. -/
def commonBankParameterDataFile : File where
  types :=
    [(c!"CommonBankParameter", []),
     (c!"CommonBankParameterSegment",
      [⟨[], none⟩]),
     (c!"commonBankParameterSegment", []),
     (c!"CommonBankParameterV2",
      [⟨[], none⟩,
       ⟨[c!"BPDVersion"], some c!"element.NumberDataElement"⟩,
       ⟨[c!"BankID"], some c!"element.BankIdentificationDataElement"⟩,
       ⟨[c!"BankName"], some c!"element.AlphaNumericDataElement"⟩,
       ⟨[c!"BusinessTransactionCount"], some c!"element.NumberDataElement"⟩,
       ⟨[c!"SupportedLanguages"], some c!"element.SupportedLanguagesDataElement"⟩,
       ⟨[c!"SupportedHBCIVersions"], some c!"element.SupportedHBCIVersionsDataElement"⟩,
       ⟨[c!"MaxMessageSize"], some c!"element.NumberDataElement"⟩]),
     (c!"CommonBankParameterV3",
      [⟨[], none⟩,
       ⟨[c!"BPDVersion"], some c!"element.NumberDataElement"⟩,
       ⟨[c!"BankID"], some c!"element.BankIdentificationDataElement"⟩,
       ⟨[c!"BankName"], some c!"element.AlphaNumericDataElement"⟩,
       ⟨[c!"BusinessTransactionCount"], some c!"element.NumberDataElement"⟩,
       ⟨[c!"SupportedLanguages"], some c!"element.SupportedLanguagesDataElement"⟩,
       ⟨[c!"SupportedHBCIVersions"], some c!"element.SupportedHBCIVersionsDataElement"⟩,
       ⟨[c!"MaxMessageSize"], some c!"element.NumberDataElement"⟩,
       ⟨[c!"MinTimeoutValue"], some c!"element.NumberDataElement"⟩,
       ⟨[c!"MaxTimeoutValue"], some c!"element.NumberDataElement"⟩])]
  methods :=
    [⟨c!"Version", some c!"CommonBankParameterV2", .otherwise⟩,
     ⟨c!"ID", some c!"CommonBankParameterV2", .otherwise⟩,
     ⟨c!"referencedId", some c!"CommonBankParameterV2", .otherwise⟩,
     ⟨c!"sender", some c!"CommonBankParameterV2", .otherwise⟩,
     ⟨c!"elements", some c!"CommonBankParameterV2", .literal
        [.field c!"BPDVersion" 44,
         .field c!"BankID" 45,
         .field c!"BankName" 46,
         .field c!"BusinessTransactionCount" 47,
         .field c!"SupportedLanguages" 48,
         .field c!"SupportedHBCIVersions" 49,
         .field c!"MaxMessageSize" 50]⟩,
     ⟨c!"BankParameterData", some c!"CommonBankParameterV2", .otherwise⟩,
     ⟨c!"Version", some c!"CommonBankParameterV3", .otherwise⟩,
     ⟨c!"ID", some c!"CommonBankParameterV3", .otherwise⟩,
     ⟨c!"referencedId", some c!"CommonBankParameterV3", .otherwise⟩,
     ⟨c!"sender", some c!"CommonBankParameterV3", .otherwise⟩,
     ⟨c!"elements", some c!"CommonBankParameterV3", .literal
        [.field c!"BPDVersion" 87,
         .field c!"BankID" 88,
         .field c!"BankName" 89,
         .field c!"BusinessTransactionCount" 90,
         .field c!"SupportedLanguages" 91,
         .field c!"SupportedHBCIVersions" 92,
         .field c!"MaxMessageSize" 93,
         .field c!"MinTimeoutValue" 94,
         .field c!"MaxTimeoutValue" 95]⟩,
     ⟨c!"BankParameterData", some c!"CommonBankParameterV3", .otherwise⟩]

/-- /repo/segment/communication_access.go:1-76. -/
def communicationAccessFile : File where
  types :=
    [(c!"CommunicationAccessRequestSegment",
      [⟨[], none⟩,
       ⟨[c!"FromBankID"], some c!"element.BankIdentificationDataElement"⟩,
       ⟨[c!"ToBankID"], some c!"element.BankIdentificationDataElement"⟩,
       ⟨[c!"MaxEntries"], some c!"element.NumberDataElement"⟩,
       ⟨[c!"ContinuationReference"], some c!"element.AlphaNumericDataElement"⟩]),
     (c!"CommunicationAccessResponseSegment",
      [⟨[], none⟩,
       ⟨[c!"BankID"], some c!"element.BankIdentificationDataElement"⟩,
       ⟨[c!"StandardLanguage"], some c!"element.NumberDataElement"⟩,
       ⟨[c!"CommunicationParams"], some c!"element.CommunicationParameterDataElement"⟩])]
  methods :=
    [⟨c!"Version", some c!"CommunicationAccessRequestSegment", .otherwise⟩,
     ⟨c!"ID", some c!"CommunicationAccessRequestSegment", .otherwise⟩,
     ⟨c!"referencedId", some c!"CommunicationAccessRequestSegment", .otherwise⟩,
     ⟨c!"sender", some c!"CommunicationAccessRequestSegment", .otherwise⟩,
     ⟨c!"elements", some c!"CommunicationAccessRequestSegment", .literal
        [.field c!"FromBankID" 36,
         .field c!"ToBankID" 37,
         .field c!"MaxEntries" 38,
         .field c!"ContinuationReference" 39]⟩,
     ⟨c!"Version", some c!"CommunicationAccessResponseSegment", .otherwise⟩,
     ⟨c!"ID", some c!"CommunicationAccessResponseSegment", .otherwise⟩,
     ⟨c!"referencedId", some c!"CommunicationAccessResponseSegment", .otherwise⟩,
     ⟨c!"sender", some c!"CommunicationAccessResponseSegment", .otherwise⟩,
     ⟨c!"elements", some c!"CommunicationAccessResponseSegment", .literal
        [.field c!"BankID" 72,
         .field c!"StandardLanguage" 73,
         .field c!"CommunicationParams" 74]⟩]

/-- /repo/segment/encrypted_data.go:1-29. -/
def encryptedDataFile : File where
  types :=
    [(c!"EncryptedDataSegment",
      [⟨[], none⟩,
       ⟨[c!"Data"], some c!"element.BinaryDataElement"⟩])]
  methods :=
    [⟨c!"Version", some c!"EncryptedDataSegment", .otherwise⟩,
     ⟨c!"ID", some c!"EncryptedDataSegment", .otherwise⟩,
     ⟨c!"referencedId", some c!"EncryptedDataSegment", .otherwise⟩,
     ⟨c!"sender", some c!"EncryptedDataSegment", .otherwise⟩,
     ⟨c!"elements", some c!"EncryptedDataSegment", .literal
        [.field c!"Data" 27]⟩]

/-- /repo/segment/encryption_header.go:1-201. -/
def encryptionHeaderFile : File where
  types :=
    [(c!"EncryptionHeader", []),
     (c!"EncryptionHeaderSegment",
      [⟨[], none⟩]),
     (c!"encryptionHeaderSegment", []),
     (c!"EncryptionHeaderV2",
      [⟨[], none⟩,
       ⟨[c!"SecurityFunction"], some c!"element.AlphaNumericDataElement"⟩,
       ⟨[c!"SecuritySupplierRole"], some c!"element.AlphaNumericDataElement"⟩,
       ⟨[c!"SecurityID"], some c!"element.SecurityIdentificationDataElement"⟩,
       ⟨[c!"SecurityDate"], some c!"element.SecurityDateDataElement"⟩,
       ⟨[c!"EncryptionAlgorithm"], some c!"element.EncryptionAlgorithmDataElement"⟩,
       ⟨[c!"KeyName"], some c!"element.KeyNameDataElement"⟩,
       ⟨[c!"CompressionFunction"], some c!"element.AlphaNumericDataElement"⟩,
       ⟨[c!"Certificate"], some c!"element.CertificateDataElement"⟩]),
     (c!"EncryptionHeaderSegmentV3",
      [⟨[], none⟩,
       ⟨[c!"SecurityProfile"], some c!"element.SecurityProfileDataElement"⟩,
       ⟨[c!"SecurityFunction"], some c!"element.CodeDataElement"⟩,
       ⟨[c!"SecuritySupplierRole"], some c!"element.CodeDataElement"⟩,
       ⟨[c!"SecurityID"], some c!"element.SecurityIdentificationDataElement"⟩,
       ⟨[c!"SecurityDate"], some c!"element.SecurityDateDataElement"⟩,
       ⟨[c!"EncryptionAlgorithm"], some c!"element.EncryptionAlgorithmDataElement"⟩,
       ⟨[c!"KeyName"], some c!"element.KeyNameDataElement"⟩,
       ⟨[c!"CompressionFunction"], some c!"element.CodeDataElement"⟩,
       ⟨[c!"Certificate"], some c!"element.CertificateDataElement"⟩])]
  methods :=
    [⟨c!"Version", some c!"EncryptionHeaderV2", .otherwise⟩,
     ⟨c!"ID", some c!"EncryptionHeaderV2", .otherwise⟩,
     ⟨c!"referencedId", some c!"EncryptionHeaderV2", .otherwise⟩,
     ⟨c!"sender", some c!"EncryptionHeaderV2", .otherwise⟩,
     ⟨c!"elements", some c!"EncryptionHeaderV2", .literal
        [.field c!"SecurityFunction" 91,
         .field c!"SecuritySupplierRole" 92,
         .field c!"SecurityID" 93,
         .field c!"SecurityDate" 94,
         .field c!"EncryptionAlgorithm" 95,
         .field c!"KeyName" 96,
         .field c!"CompressionFunction" 97,
         .field c!"Certificate" 98]⟩,
     ⟨c!"SetEncryptionKeyName", some c!"EncryptionHeaderV2", .otherwise⟩,
     ⟨c!"SetEncryptionAlgorithm", some c!"EncryptionHeaderV2", .otherwise⟩,
     ⟨c!"SetClientSystemID", some c!"EncryptionHeaderV2", .otherwise⟩,
     ⟨c!"SetSecurityProfile", some c!"EncryptionHeaderV2", .otherwise⟩,
     ⟨c!"Version", some c!"EncryptionHeaderSegmentV3", .otherwise⟩,
     ⟨c!"ID", some c!"EncryptionHeaderSegmentV3", .otherwise⟩,
     ⟨c!"referencedId", some c!"EncryptionHeaderSegmentV3", .otherwise⟩,
     ⟨c!"sender", some c!"EncryptionHeaderSegmentV3", .otherwise⟩,
     ⟨c!"elements", some c!"EncryptionHeaderSegmentV3", .literal
        [.field c!"SecurityProfile" 171,
         .field c!"SecurityFunction" 172,
         .field c!"SecuritySupplierRole" 173,
         .field c!"SecurityID" 174,
         .field c!"SecurityDate" 175,
         .field c!"EncryptionAlgorithm" 176,
         .field c!"KeyName" 177,
         .field c!"CompressionFunction" 178,
         .field c!"Certificate" 179]⟩,
     ⟨c!"SetEncryptionKeyName", some c!"EncryptionHeaderSegmentV3", .otherwise⟩,
     ⟨c!"SetEncryptionAlgorithm", some c!"EncryptionHeaderSegmentV3", .otherwise⟩,
     ⟨c!"SetClientSystemID", some c!"EncryptionHeaderSegmentV3", .otherwise⟩,
     ⟨c!"SetSecurityProfile", some c!"EncryptionHeaderSegmentV3", .otherwise⟩]

/-- /repo/segment/message_end.go:1-29. -/
def messageEndFile : File where
  types :=
    [(c!"MessageEndSegment",
      [⟨[], none⟩,
       ⟨[c!"Number"], some c!"element.NumberDataElement"⟩])]
  methods :=
    [⟨c!"Version", some c!"MessageEndSegment", .otherwise⟩,
     ⟨c!"ID", some c!"MessageEndSegment", .otherwise⟩,
     ⟨c!"referencedId", some c!"MessageEndSegment", .otherwise⟩,
     ⟨c!"sender", some c!"MessageEndSegment", .otherwise⟩,
     ⟨c!"elements", some c!"MessageEndSegment", .literal
        [.field c!"Number" 27]⟩]

/-- /repo/segment/message_header.go:1-67. -/
def messageHeaderFile : File where
  types :=
    [(c!"MessageHeaderSegment",
      [⟨[], none⟩,
       ⟨[c!"Size"], some c!"element.DigitDataElement"⟩,
       ⟨[c!"HBCIVersion"], some c!"element.NumberDataElement"⟩,
       ⟨[c!"DialogID"], some c!"element.IdentificationDataElement"⟩,
       ⟨[c!"Number"], some c!"element.NumberDataElement"⟩,
       ⟨[c!"Ref"], some c!"element.ReferencingMessageDataElement"⟩])]
  methods :=
    [⟨c!"Version", some c!"MessageHeaderSegment", .otherwise⟩,
     ⟨c!"ID", some c!"MessageHeaderSegment", .otherwise⟩,
     ⟨c!"referencedId", some c!"MessageHeaderSegment", .otherwise⟩,
     ⟨c!"sender", some c!"MessageHeaderSegment", .otherwise⟩,
     ⟨c!"ReferencingMessage", some c!"MessageHeaderSegment", .otherwise⟩,
     ⟨c!"SetMessageNumber", some c!"MessageHeaderSegment", .otherwise⟩,
     ⟨c!"elements", some c!"MessageHeaderSegment", .literal
        [.field c!"Size" 57,
         .field c!"HBCIVersion" 58,
         .field c!"DialogID" 59,
         .field c!"Number" 60,
         .field c!"Ref" 61]⟩,
     ⟨c!"SetSize", some c!"MessageHeaderSegment", .otherwise⟩]

/-- /repo/segment/pin_bpd.go:1-53. -/
def pinBpdFile : File where
  types :=
    [(c!"PinTanBankParameter", []),
     (c!"PinTanBankParameterSegment",
      [⟨[], none⟩]),
     (c!"PinTanBankParameterV1",
      [⟨[], none⟩,
       ⟨[c!"MaxJobs"], some c!"element.NumberDataElement"⟩,
       ⟨[c!"MinSignatures"], some c!"element.NumberDataElement"⟩,
       ⟨[c!"XXX_Unknown"], some c!"element.NumberDataElement"⟩,
       ⟨[c!"PinTanSpecificParams"], some c!"element.PinTanSpecificParamDataElement"⟩])]
  methods :=
    [⟨c!"Version", some c!"PinTanBankParameterV1", .otherwise⟩,
     ⟨c!"ID", some c!"PinTanBankParameterV1", .otherwise⟩,
     ⟨c!"referencedId", some c!"PinTanBankParameterV1", .otherwise⟩,
     ⟨c!"sender", some c!"PinTanBankParameterV1", .otherwise⟩,
     ⟨c!"elements", some c!"PinTanBankParameterV1", .literal
        [.field c!"MaxJobs" 40,
         .field c!"MinSignatures" 41,
         .field c!"XXX_Unknown" 42,
         .field c!"PinTanSpecificParams" 43]⟩,
     ⟨c!"PinTanBusinessTransactions", some c!"PinTanBankParameterV1", .otherwise⟩]

/-- /repo/segment/signature_end.go:1-104. -/
def signatureEndFile : File where
  types :=
    [(c!"SignatureEnd", []),
     (c!"signatureEndSegment", []),
     (c!"SignatureEndSegment",
      [⟨[], none⟩]),
     (c!"SignatureEndV1",
      [⟨[], none⟩,
       ⟨[c!"SecurityControlRef"], some c!"element.AlphaNumericDataElement"⟩,
       ⟨[c!"Signature"], some c!"element.BinaryDataElement"⟩,
       ⟨[c!"PinTan"], some c!"element.PinTanDataElement"⟩]),
     (c!"SignatureEndV2",
      [⟨[], none⟩,
       ⟨[c!"SecurityControlRef"], some c!"element.AlphaNumericDataElement"⟩,
       ⟨[c!"Signature"], some c!"element.BinaryDataElement"⟩,
       ⟨[c!"CustomSignature"], some c!"element.CustomSignatureDataElement"⟩])]
  methods :=
    [⟨c!"Version", some c!"SignatureEndV1", .otherwise⟩,
     ⟨c!"ID", some c!"SignatureEndV1", .otherwise⟩,
     ⟨c!"referencedId", some c!"SignatureEndV1", .otherwise⟩,
     ⟨c!"sender", some c!"SignatureEndV1", .otherwise⟩,
     ⟨c!"elements", some c!"SignatureEndV1", .literal
        [.field c!"SecurityControlRef" 47,
         .field c!"Signature" 48,
         .field c!"PinTan" 49]⟩,
     ⟨c!"SetControlReference", some c!"SignatureEndV1", .otherwise⟩,
     ⟨c!"SetSignature", some c!"SignatureEndV1", .otherwise⟩,
     ⟨c!"SetPinTan", some c!"SignatureEndV1", .otherwise⟩,
     ⟨c!"Version", some c!"SignatureEndV2", .otherwise⟩,
     ⟨c!"ID", some c!"SignatureEndV2", .otherwise⟩,
     ⟨c!"referencedId", some c!"SignatureEndV2", .otherwise⟩,
     ⟨c!"sender", some c!"SignatureEndV2", .otherwise⟩,
     ⟨c!"elements", some c!"SignatureEndV2", .literal
        [.field c!"SecurityControlRef" 88,
         .field c!"Signature" 89,
         .field c!"CustomSignature" 90]⟩,
     ⟨c!"SetControlReference", some c!"SignatureEndV2", .otherwise⟩,
     ⟨c!"SetSignature", some c!"SignatureEndV2", .otherwise⟩,
     ⟨c!"SetPinTan", some c!"SignatureEndV2", .otherwise⟩]

/-- /repo/segment/signature_header.go:1-258. -/
def signatureHeaderFile : File where
  types :=
    [(c!"SignatureHeader", []),
     (c!"SignatureHeaderSegment",
      [⟨[], none⟩]),
     (c!"signatureHeaderSegment", []),
     (c!"SignatureHeaderV3",
      [⟨[], none⟩,
       ⟨[c!"SecurityFunction"], some c!"element.AlphaNumericDataElement"⟩,
       ⟨[c!"SecurityControlRef"], some c!"element.AlphaNumericDataElement"⟩,
       ⟨[c!"SecurityApplicationRange"], some c!"element.AlphaNumericDataElement"⟩,
       ⟨[c!"SecuritySupplierRole"], some c!"element.AlphaNumericDataElement"⟩,
       ⟨[c!"SecurityID"], some c!"element.SecurityIdentificationDataElement"⟩,
       ⟨[c!"SecurityRefNumber"], some c!"element.NumberDataElement"⟩,
       ⟨[c!"SecurityDate"], some c!"element.SecurityDateDataElement"⟩,
       ⟨[c!"HashAlgorithm"], some c!"element.HashAlgorithmDataElement"⟩,
       ⟨[c!"SignatureAlgorithm"], some c!"element.SignatureAlgorithmDataElement"⟩,
       ⟨[c!"KeyName"], some c!"element.KeyNameDataElement"⟩,
       ⟨[c!"Certificate"], some c!"element.CertificateDataElement"⟩]),
     (c!"SignatureHeaderSegmentV4",
      [⟨[], none⟩,
       ⟨[c!"SecurityProfile"], some c!"element.SecurityProfileDataElement"⟩,
       ⟨[c!"SecurityFunction"], some c!"element.CodeDataElement"⟩,
       ⟨[c!"SecurityControlRef"], some c!"element.AlphaNumericDataElement"⟩,
       ⟨[c!"SecurityApplicationRange"], some c!"element.CodeDataElement"⟩,
       ⟨[c!"SecuritySupplierRole"], some c!"element.CodeDataElement"⟩,
       ⟨[c!"SecurityID"], some c!"element.SecurityIdentificationDataElement"⟩,
       ⟨[c!"SecurityRefNumber"], some c!"element.NumberDataElement"⟩,
       ⟨[c!"SecurityDate"], some c!"element.SecurityDateDataElement"⟩,
       ⟨[c!"HashAlgorithm"], some c!"element.HashAlgorithmDataElement"⟩,
       ⟨[c!"SignatureAlgorithm"], some c!"element.SignatureAlgorithmDataElement"⟩,
       ⟨[c!"KeyName"], some c!"element.KeyNameDataElement"⟩,
       ⟨[c!"Certificate"], some c!"element.CertificateDataElement"⟩])]
  methods :=
    [⟨c!"SetSecurityFunction", some c!"SignatureHeaderV3", .otherwise⟩,
     ⟨c!"SetControlReference", some c!"SignatureHeaderV3", .otherwise⟩,
     ⟨c!"SetSigningKeyName", some c!"SignatureHeaderV3", .otherwise⟩,
     ⟨c!"SetClientSystemID", some c!"SignatureHeaderV3", .otherwise⟩,
     ⟨c!"SetSignatureID", some c!"SignatureHeaderV3", .otherwise⟩,
     ⟨c!"Version", some c!"SignatureHeaderV3", .otherwise⟩,
     ⟨c!"ID", some c!"SignatureHeaderV3", .otherwise⟩,
     ⟨c!"referencedId", some c!"SignatureHeaderV3", .otherwise⟩,
     ⟨c!"sender", some c!"SignatureHeaderV3", .otherwise⟩,
     ⟨c!"elements", some c!"SignatureHeaderV3", .literal
        [.field c!"SecurityFunction" 138,
         .field c!"SecurityControlRef" 139,
         .field c!"SecurityApplicationRange" 140,
         .field c!"SecuritySupplierRole" 141,
         .field c!"SecurityID" 142,
         .field c!"SecurityRefNumber" 143,
         .field c!"SecurityDate" 144,
         .field c!"HashAlgorithm" 145,
         .field c!"SignatureAlgorithm" 146,
         .field c!"KeyName" 147,
         .field c!"Certificate" 148]⟩,
     ⟨c!"SetSecurityFunction", some c!"SignatureHeaderSegmentV4", .otherwise⟩,
     ⟨c!"SetControlReference", some c!"SignatureHeaderSegmentV4", .otherwise⟩,
     ⟨c!"SetSigningKeyName", some c!"SignatureHeaderSegmentV4", .otherwise⟩,
     ⟨c!"SetClientSystemID", some c!"SignatureHeaderSegmentV4", .otherwise⟩,
     ⟨c!"SetSignatureID", some c!"SignatureHeaderSegmentV4", .otherwise⟩,
     ⟨c!"Version", some c!"SignatureHeaderSegmentV4", .otherwise⟩,
     ⟨c!"ID", some c!"SignatureHeaderSegmentV4", .otherwise⟩,
     ⟨c!"referencedId", some c!"SignatureHeaderSegmentV4", .otherwise⟩,
     ⟨c!"sender", some c!"SignatureHeaderSegmentV4", .otherwise⟩,
     ⟨c!"elements", some c!"SignatureHeaderSegmentV4", .literal
        [.field c!"SecurityProfile" 245,
         .field c!"SecurityFunction" 246,
         .field c!"SecurityControlRef" 247,
         .field c!"SecurityApplicationRange" 248,
         .field c!"SecuritySupplierRole" 249,
         .field c!"SecurityID" 250,
         .field c!"SecurityRefNumber" 251,
         .field c!"SecurityDate" 252,
         .field c!"HashAlgorithm" 253,
         .field c!"SignatureAlgorithm" 254,
         .field c!"KeyName" 255,
         .field c!"Certificate" 256]⟩]

/-- /repo/segment/status_protocol.go:1-190. -/
def statusProtocolFile : File where
  types :=
    [(c!"StatusProtocolRequest", []),
     (c!"StatusProtocolRequestSegmentV3",
      [⟨[], none⟩,
       ⟨[c!"From"], some c!"element.DateDataElement"⟩,
       ⟨[c!"To"], some c!"element.DateDataElement"⟩,
       ⟨[c!"MaxEntries"], some c!"element.NumberDataElement"⟩,
       ⟨[c!"ContinuationReference"], some c!"element.AlphaNumericDataElement"⟩]),
     (c!"StatusProtocolRequestSegmentV4",
      [⟨[], none⟩,
       ⟨[c!"From"], some c!"element.DateDataElement"⟩,
       ⟨[c!"To"], some c!"element.DateDataElement"⟩,
       ⟨[c!"MaxEntries"], some c!"element.NumberDataElement"⟩,
       ⟨[c!"ContinuationReference"], some c!"element.AlphaNumericDataElement"⟩]),
     (c!"StatusProtocolResponse", []),
     (c!"StatusProtocolResponseSegment",
      [⟨[], none⟩]),
     (c!"StatusProtocolResponseSegmentV3",
      [⟨[], none⟩,
       ⟨[c!"ReferencingMessage"], some c!"element.ReferencingMessageDataElement"⟩,
       ⟨[c!"ReferencingSegment"], some c!"element.NumberDataElement"⟩,
       ⟨[c!"Date"], some c!"element.DateDataElement"⟩,
       ⟨[c!"Time"], some c!"element.TimeDataElement"⟩,
       ⟨[c!"Acknowledgement"], some c!"element.AcknowledgementDataElement"⟩]),
     (c!"StatusProtocolResponseSegmentV4",
      [⟨[], none⟩,
       ⟨[c!"ReferencingMessage"], some c!"element.ReferencingMessageDataElement"⟩,
       ⟨[c!"ReferencingSegment"], some c!"element.NumberDataElement"⟩,
       ⟨[c!"Date"], some c!"element.DateDataElement"⟩,
       ⟨[c!"Time"], some c!"element.TimeDataElement"⟩,
       ⟨[c!"Acknowledgement"], some c!"element.AcknowledgementDataElement"⟩])]
  methods :=
    [⟨c!"ID", some c!"StatusProtocolRequestSegmentV3", .otherwise⟩,
     ⟨c!"Version", some c!"StatusProtocolRequestSegmentV3", .otherwise⟩,
     ⟨c!"referencedId", some c!"StatusProtocolRequestSegmentV3", .otherwise⟩,
     ⟨c!"sender", some c!"StatusProtocolRequestSegmentV3", .otherwise⟩,
     ⟨c!"elements", some c!"StatusProtocolRequestSegmentV3", .literal
        [.field c!"From" 59,
         .field c!"To" 60,
         .field c!"MaxEntries" 61,
         .field c!"ContinuationReference" 62]⟩,
     ⟨c!"ID", some c!"StatusProtocolRequestSegmentV4", .otherwise⟩,
     ⟨c!"Version", some c!"StatusProtocolRequestSegmentV4", .otherwise⟩,
     ⟨c!"referencedId", some c!"StatusProtocolRequestSegmentV4", .otherwise⟩,
     ⟨c!"sender", some c!"StatusProtocolRequestSegmentV4", .otherwise⟩,
     ⟨c!"elements", some c!"StatusProtocolRequestSegmentV4", .literal
        [.field c!"From" 94,
         .field c!"To" 95,
         .field c!"MaxEntries" 96,
         .field c!"ContinuationReference" 97]⟩,
     ⟨c!"ID", some c!"StatusProtocolResponseSegmentV3", .otherwise⟩,
     ⟨c!"Version", some c!"StatusProtocolResponseSegmentV3", .otherwise⟩,
     ⟨c!"referencedId", some c!"StatusProtocolResponseSegmentV3", .otherwise⟩,
     ⟨c!"sender", some c!"StatusProtocolResponseSegmentV3", .otherwise⟩,
     ⟨c!"elements", some c!"StatusProtocolResponseSegmentV3", .literal
        [.field c!"ReferencingMessage" 128,
         .field c!"ReferencingSegment" 129,
         .field c!"Date" 130,
         .field c!"Time" 131,
         .field c!"Acknowledgement" 132]⟩,
     ⟨c!"Status", some c!"StatusProtocolResponseSegmentV3", .otherwise⟩,
     ⟨c!"ID", some c!"StatusProtocolResponseSegmentV4", .otherwise⟩,
     ⟨c!"Version", some c!"StatusProtocolResponseSegmentV4", .otherwise⟩,
     ⟨c!"referencedId", some c!"StatusProtocolResponseSegmentV4", .otherwise⟩,
     ⟨c!"sender", some c!"StatusProtocolResponseSegmentV4", .otherwise⟩,
     ⟨c!"elements", some c!"StatusProtocolResponseSegmentV4", .literal
        [.field c!"ReferencingMessage" 168,
         .field c!"ReferencingSegment" 169,
         .field c!"Date" 170,
         .field c!"Time" 171,
         .field c!"Acknowledgement" 172]⟩,
     ⟨c!"Status", some c!"StatusProtocolResponseSegmentV4", .otherwise⟩]

/-- /repo/segment/supported_compression_method.go:1-21. -/
def supportedCompressionMethodFile : File where
  types :=
    [(c!"CompressionMethodSegment",
      [⟨[], none⟩,
       ⟨[c!"SupportedCompressionMethods"], some c!"element.SupportedCompressionMethodsDataElement"⟩])]
  methods :=
    [⟨c!"Version", some c!"CompressionMethodSegment", .otherwise⟩,
     ⟨c!"ID", some c!"CompressionMethodSegment", .otherwise⟩,
     ⟨c!"referencedId", some c!"CompressionMethodSegment", .otherwise⟩,
     ⟨c!"sender", some c!"CompressionMethodSegment", .otherwise⟩,
     ⟨c!"elements", some c!"CompressionMethodSegment", .literal
        [.field c!"SupportedCompressionMethods" 19]⟩]

/-- /repo/segment/supported_security_method.go:1-23. -/
def supportedSecurityMethodFile : File where
  types :=
    [(c!"SecurityMethodSegment",
      [⟨[], none⟩,
       ⟨[c!"MixAllowed"], some c!"element.BooleanDataElement"⟩,
       ⟨[c!"SupportedMethods"], some c!"element.SupportedSecurityMethodDataElement"⟩])]
  methods :=
    [⟨c!"Version", some c!"SecurityMethodSegment", .otherwise⟩,
     ⟨c!"ID", some c!"SecurityMethodSegment", .otherwise⟩,
     ⟨c!"referencedId", some c!"SecurityMethodSegment", .otherwise⟩,
     ⟨c!"sender", some c!"SecurityMethodSegment", .otherwise⟩,
     ⟨c!"elements", some c!"SecurityMethodSegment", .literal
        [.field c!"MixAllowed" 20,
         .field c!"SupportedMethods" 21]⟩]

/-- /repo/segment/sync.go:1-165. -/
def syncSourceFile : File where
  types :=
    [(c!"SyncMode",
      [⟨[c!"mode"], none⟩]),
     (c!"SynchronisationRequestSegment",
      [⟨[], none⟩]),
     (c!"SynchronisationRequestV2",
      [⟨[], none⟩,
       ⟨[c!"SyncModus"], some c!"element.NumberDataElement"⟩]),
     (c!"SynchronisationRequestV3",
      [⟨[], none⟩,
       ⟨[c!"SyncModus"], some c!"element.CodeDataElement"⟩]),
     (c!"SynchronisationResponse", []),
     (c!"SynchronisationResponseSegment",
      [⟨[], none⟩]),
     (c!"SynchronisationResponseSegmentV3",
      [⟨[], none⟩,
       ⟨[c!"ClientSystemIDResponse"], some c!"element.IdentificationDataElement"⟩,
       ⟨[c!"MessageNumberResponse"], some c!"element.NumberDataElement"⟩,
       ⟨[c!"SignatureIDResponse"], some c!"element.NumberDataElement"⟩]),
     (c!"SynchronisationResponseSegmentV4",
      [⟨[], none⟩,
       ⟨[c!"ClientSystemIDResponse"], some c!"element.IdentificationDataElement"⟩,
       ⟨[c!"MessageNumberResponse"], some c!"element.NumberDataElement"⟩,
       ⟨[c!"SignatureIDResponse"], some c!"element.NumberDataElement"⟩])]
  methods :=
    [⟨c!"Version", some c!"SynchronisationRequestV2", .otherwise⟩,
     ⟨c!"ID", some c!"SynchronisationRequestV2", .otherwise⟩,
     ⟨c!"referencedId", some c!"SynchronisationRequestV2", .otherwise⟩,
     ⟨c!"sender", some c!"SynchronisationRequestV2", .otherwise⟩,
     ⟨c!"elements", some c!"SynchronisationRequestV2", .literal
        [.field c!"SyncModus" 53]⟩,
     ⟨c!"Version", some c!"SynchronisationRequestV3", .otherwise⟩,
     ⟨c!"ID", some c!"SynchronisationRequestV3", .otherwise⟩,
     ⟨c!"referencedId", some c!"SynchronisationRequestV3", .otherwise⟩,
     ⟨c!"sender", some c!"SynchronisationRequestV3", .otherwise⟩,
     ⟨c!"elements", some c!"SynchronisationRequestV3", .literal
        [.field c!"SyncModus" 86]⟩,
     ⟨c!"Version", some c!"SynchronisationResponseSegmentV3", .otherwise⟩,
     ⟨c!"ID", some c!"SynchronisationResponseSegmentV3", .otherwise⟩,
     ⟨c!"referencedId", some c!"SynchronisationResponseSegmentV3", .otherwise⟩,
     ⟨c!"sender", some c!"SynchronisationResponseSegmentV3", .otherwise⟩,
     ⟨c!"elements", some c!"SynchronisationResponseSegmentV3", .literal
        [.field c!"ClientSystemIDResponse" 117,
         .field c!"MessageNumberResponse" 118,
         .field c!"SignatureIDResponse" 119]⟩,
     ⟨c!"ClientSystemID", some c!"SynchronisationResponseSegmentV3", .otherwise⟩,
     ⟨c!"LastMessageNumber", some c!"SynchronisationResponseSegmentV3", .otherwise⟩,
     ⟨c!"SignatureID", some c!"SynchronisationResponseSegmentV3", .otherwise⟩,
     ⟨c!"Version", some c!"SynchronisationResponseSegmentV4", .otherwise⟩,
     ⟨c!"ID", some c!"SynchronisationResponseSegmentV4", .otherwise⟩,
     ⟨c!"referencedId", some c!"SynchronisationResponseSegmentV4", .otherwise⟩,
     ⟨c!"sender", some c!"SynchronisationResponseSegmentV4", .otherwise⟩,
     ⟨c!"elements", some c!"SynchronisationResponseSegmentV4", .literal
        [.field c!"ClientSystemIDResponse" 149,
         .field c!"MessageNumberResponse" 150,
         .field c!"SignatureIDResponse" 151]⟩,
     ⟨c!"ClientSystemID", some c!"SynchronisationResponseSegmentV4", .otherwise⟩,
     ⟨c!"LastMessageNumber", some c!"SynchronisationResponseSegmentV4", .otherwise⟩,
     ⟨c!"SignatureID", some c!"SynchronisationResponseSegmentV4", .otherwise⟩]

/-- /repo/segment/tan.go:1-157. -/
def tanFile : File where
  types :=
    [(c!"tanProcess4Constructor", []),
     (c!"TanRequestSegment",
      [⟨[], none⟩]),
     (c!"tanRequestSegment", []),
     (c!"TanRequestSegmentV1",
      [⟨[], none⟩,
       ⟨[c!"TANProcess"], some c!"element.AlphaNumericDataElement"⟩,
       ⟨[c!"JobHash"], some c!"element.BinaryDataElement"⟩,
       ⟨[c!"JobReference"], some c!"element.AlphaNumericDataElement"⟩,
       ⟨[c!"TanListNumber"], some c!"element.AlphaNumericDataElement"⟩,
       ⟨[c!"AnotherTanFollows"], some c!"element.BooleanDataElement"⟩,
       ⟨[c!"TANInformation"], some c!"element.AlphaNumericDataElement"⟩]),
     (c!"TanRequestSegmentV6",
      [⟨[], none⟩,
       ⟨[c!"TANProcess"], some c!"element.AlphaNumericDataElement"⟩,
       ⟨[c!"ReferencingSegmentID"], some c!"element.AlphaNumericDataElement"⟩,
       ⟨[c!"JobHash"], some c!"element.BinaryDataElement"⟩,
       ⟨[c!"JobReference"], some c!"element.AlphaNumericDataElement"⟩,
       ⟨[c!"TanListNumber"], some c!"element.AlphaNumericDataElement"⟩,
       ⟨[c!"AnotherTanFollows"], some c!"element.BooleanDataElement"⟩,
       ⟨[c!"TANInformation"], some c!"element.AlphaNumericDataElement"⟩]),
     (c!"TanResponse", []),
     (c!"TanResponseSegment",
      [⟨[], none⟩]),
     (c!"TanResponseSegmentV6",
      [⟨[], none⟩,
       ⟨[c!"TANProcess"], some c!"element.AlphaNumericDataElement"⟩,
       ⟨[c!"JobHash"], some c!"element.BinaryDataElement"⟩,
       ⟨[c!"JobReference"], some c!"element.AlphaNumericDataElement"⟩,
       ⟨[c!"Challenge"], some c!"element.AlphaNumericDataElement"⟩,
       ⟨[c!"ChallengeHHD_UC"], some c!"element.BinaryDataElement"⟩,
       ⟨[c!"TANMediumDescription"], some c!"element.AlphaNumericDataElement"⟩,
       ⟨[c!"ChallengeExpiryDate"], some c!"element.TanChallengeExpiryDate"⟩])]
  methods :=
    [⟨c!"Version", some c!"TanRequestSegmentV1", .otherwise⟩,
     ⟨c!"ID", some c!"TanRequestSegmentV1", .otherwise⟩,
     ⟨c!"referencedId", some c!"TanRequestSegmentV1", .otherwise⟩,
     ⟨c!"sender", some c!"TanRequestSegmentV1", .otherwise⟩,
     ⟨c!"elements", some c!"TanRequestSegmentV1", .literal
        [.field c!"TANProcess" 75,
         .field c!"JobHash" 76,
         .field c!"JobReference" 77,
         .field c!"TanListNumber" 78,
         .field c!"AnotherTanFollows" 79,
         .field c!"TANInformation" 80]⟩,
     ⟨c!"Version", some c!"TanRequestSegmentV6", .otherwise⟩,
     ⟨c!"ID", some c!"TanRequestSegmentV6", .otherwise⟩,
     ⟨c!"referencedId", some c!"TanRequestSegmentV6", .otherwise⟩,
     ⟨c!"sender", some c!"TanRequestSegmentV6", .otherwise⟩,
     ⟨c!"elements", some c!"TanRequestSegmentV6", .literal
        [.field c!"TANProcess" 115,
         .field c!"ReferencingSegmentID" 116,
         .field c!"JobHash" 117,
         .field c!"JobReference" 118,
         .field c!"TanListNumber" 119,
         .field c!"AnotherTanFollows" 120,
         .field c!"TANInformation" 121]⟩,
     ⟨c!"Version", some c!"TanResponseSegmentV6", .otherwise⟩,
     ⟨c!"ID", some c!"TanResponseSegmentV6", .otherwise⟩,
     ⟨c!"referencedId", some c!"TanResponseSegmentV6", .otherwise⟩,
     ⟨c!"sender", some c!"TanResponseSegmentV6", .otherwise⟩,
     ⟨c!"elements", some c!"TanResponseSegmentV6", .literal
        [.field c!"TANProcess" 153,
         .field c!"JobHash" 154,
         .field c!"JobReference" 155]⟩]

/-- /repo/segment/tan_bpd.go:1-52. -/
def tanBpdFile : File where
  types :=
    [(c!"TanBankParameter", []),
     (c!"TanBankParameterSegment",
      [⟨[], none⟩]),
     (c!"TanBankParameterV6",
      [⟨[], none⟩,
       ⟨[c!"MaxJobs"], some c!"element.NumberDataElement"⟩,
       ⟨[c!"MinSignatures"], some c!"element.NumberDataElement"⟩,
       ⟨[c!"SecurityClass"], some c!"element.CodeDataElement"⟩,
       ⟨[c!"Tan2StepSubmissionParameter"], some c!"element.Tan2StepSubmissionParameterV6"⟩])]
  methods :=
    [⟨c!"Version", some c!"TanBankParameterV6", .otherwise⟩,
     ⟨c!"ID", some c!"TanBankParameterV6", .otherwise⟩,
     ⟨c!"referencedId", some c!"TanBankParameterV6", .otherwise⟩,
     ⟨c!"sender", some c!"TanBankParameterV6", .otherwise⟩,
     ⟨c!"elements", some c!"TanBankParameterV6", .literal
        [.field c!"MaxJobs" 38,
         .field c!"MinSignatures" 39,
         .field c!"SecurityClass" 40,
         .field c!"Tan2StepSubmissionParameter" 41]⟩,
     ⟨c!"MarshalYAML", some c!"TanBankParameterV6", .otherwise⟩]

/-- /repo/segment/user_parameter_data.go:1-150. -/
def userParameterDataFile : File where
  types :=
    [(c!"CommonUserParameterData", []),
     (c!"CommonUserParameterDataSegment",
      [⟨[], none⟩]),
     (c!"commonUserParameterDataSegment", []),
     (c!"CommonUserParameterDataV2",
      [⟨[], none⟩,
       ⟨[c!"UserID"], some c!"element.IdentificationDataElement"⟩,
       ⟨[c!"UPDVersion"], some c!"element.NumberDataElement"⟩,
       ⟨[c!"UPDUsage"], some c!"element.NumberDataElement"⟩]),
     (c!"CommonUserParameterDataV3",
      [⟨[], none⟩,
       ⟨[c!"UserID"], some c!"element.IdentificationDataElement"⟩,
       ⟨[c!"UPDVersion"], some c!"element.NumberDataElement"⟩,
       ⟨[c!"UPDUsage"], some c!"element.NumberDataElement"⟩,
       ⟨[c!"UserName"], some c!"element.AlphaNumericDataElement"⟩,
       ⟨[c!"CommonExtensions"], some c!"element.AlphaNumericDataElement"⟩]),
     (c!"CommonUserParameterDataV4",
      [⟨[], none⟩,
       ⟨[c!"UserID"], some c!"element.IdentificationDataElement"⟩,
       ⟨[c!"UPDVersion"], some c!"element.NumberDataElement"⟩,
       ⟨[c!"UPDUsage"], some c!"element.NumberDataElement"⟩,
       ⟨[c!"UserName"], some c!"element.AlphaNumericDataElement"⟩,
       ⟨[c!"CommonExtensions"], some c!"element.AlphaNumericDataElement"⟩])]
  methods :=
    [⟨c!"Version", some c!"CommonUserParameterDataV2", .otherwise⟩,
     ⟨c!"ID", some c!"CommonUserParameterDataV2", .otherwise⟩,
     ⟨c!"referencedId", some c!"CommonUserParameterDataV2", .otherwise⟩,
     ⟨c!"sender", some c!"CommonUserParameterDataV2", .otherwise⟩,
     ⟨c!"elements", some c!"CommonUserParameterDataV2", .literal
        [.field c!"UserID" 48,
         .field c!"UPDVersion" 49,
         .field c!"UPDUsage" 50]⟩,
     ⟨c!"UserParameterData", some c!"CommonUserParameterDataV2", .otherwise⟩,
     ⟨c!"Version", some c!"CommonUserParameterDataV3", .otherwise⟩,
     ⟨c!"ID", some c!"CommonUserParameterDataV3", .otherwise⟩,
     ⟨c!"referencedId", some c!"CommonUserParameterDataV3", .otherwise⟩,
     ⟨c!"sender", some c!"CommonUserParameterDataV3", .otherwise⟩,
     ⟨c!"elements", some c!"CommonUserParameterDataV3", .literal
        [.field c!"UserID" 86,
         .field c!"UPDVersion" 87,
         .field c!"UPDUsage" 88,
         .field c!"UserName" 89,
         .field c!"CommonExtensions" 90]⟩,
     ⟨c!"UserParameterData", some c!"CommonUserParameterDataV3", .otherwise⟩,
     ⟨c!"Version", some c!"CommonUserParameterDataV4", .otherwise⟩,
     ⟨c!"ID", some c!"CommonUserParameterDataV4", .otherwise⟩,
     ⟨c!"referencedId", some c!"CommonUserParameterDataV4", .otherwise⟩,
     ⟨c!"sender", some c!"CommonUserParameterDataV4", .otherwise⟩,
     ⟨c!"elements", some c!"CommonUserParameterDataV4", .literal
        [.field c!"UserID" 126,
         .field c!"UPDVersion" 127,
         .field c!"UPDUsage" 128,
         .field c!"UserName" 129,
         .field c!"CommonExtensions" 130]⟩,
     ⟨c!"UserParameterData", some c!"CommonUserParameterDataV4", .otherwise⟩]

end Verif.Generator

import Verif.Element.Model

/-
Model of the compound data elements of element/group_data_element_group.go,
element/user_parameter_data.go, element/encryption.go and
element/signature_fints3.go: how they are written and read.
-/

namespace Verif.Element

open GoLib

/-- /repo/domain/business_transaction.go:4-7 `Amount`. -/
structure Amount where
  amount : Dec
  currency : Str
  deriving DecidableEq, Repr

/-- /repo/element/group_data_element_group.go:15-22 `NewAmount`. -/
def amountDE (a : Amount) : DE := .group 2 [some (.value a.amount 15), some (.currency a.currency 3)]

/-- /repo/element/group_data_element_group.go:53-66: the extracted elements. -/
def amountParts : List Bytes → Outcome Amount
  | [v, c] => (unmarshalFloat v).map' fun x => ⟨x, unmarshalText c⟩
  | _ => .err

/-- /repo/element/group_data_element_group.go:48-68 `AmountDataElement.UnmarshalHBCI`
followed by `Val` (:40-45). -/
def unmarshalAmount (b : Bytes) : Outcome Amount := (extractElements b).bind amountParts

/-- /repo/element/group_data_element_group.go:71-78 `NewBankIdentification`. -/
def bankIdentification (country : Int) (id : Str) : DE :=
  .group 2 [some (.countryCode country 3), some (.alnum id 30)]

/-- /repo/element/group_data_element_group.go:109-118: the extracted elements. -/
def bankParts : List Bytes → Outcome (Option Int × Str)
  | c :: i :: _ => (unmarshalCountry c).map' fun n => (n, Charset.toUTF8 i)
  | _ => .err

/-- /repo/element/group_data_element_group.go:104-120
`BankIdentificationDataElement.UnmarshalHBCI`: the country code keeps no value if it
is no number, the bank ID is not unescaped. -/
def unmarshalBankIdentification (b : Bytes) : Outcome (Option Int × Str) := (extractElements b).bind bankParts

/-- /repo/domain/account_connection.go:4-9 `AccountConnection`. -/
structure AccountConnection where
  accountID : Str
  sub : Str
  country : Int
  bankID : Str
  deriving DecidableEq, Repr

/-- /repo/element/group_data_element_group.go:123-132 `NewAccountConnection`. -/
def accountConnectionDE (c : AccountConnection) : DE :=
  .group 4 [some (.identification c.accountID 30), some (.identification c.sub 30), some (.countryCode c.country 3),
    some (.alnum c.bankID 30)]

/-- /repo/element/group_data_element_group.go:159-172: the extracted elements.  Nothing
is unescaped. -/
def accountParts : List Bytes → Outcome AccountConnection
  | a :: s :: c :: i :: _ =>
    (Outcome.ofOption (atoi c)).map' fun n => ⟨Charset.toUTF8 a, Charset.toUTF8 s, n, Charset.toUTF8 i⟩
  | _ => .err

/-- /repo/element/group_data_element_group.go:154-174
`AccountConnectionDataElement.UnmarshalHBCI` followed by `Val` (:177-184). -/
def unmarshalAccountConnection (b : Bytes) : Outcome AccountConnection := (extractElements b).bind accountParts

/-- /repo/domain/account_connection.go:13-19 `InternationalAccountConnection`, with the
two fields of its bank ID. -/
structure InternationalConnection where
  iban : Str
  bic : Str
  accountID : Str
  sub : Str
  country : Int
  bankID : Str
  deriving DecidableEq, Repr

/-- /repo/element/group_data_element_group.go:187-197
`NewInternationalAccountConnection`. -/
def internationalDE (c : InternationalConnection) : DE :=
  .group 5 [some (.alnum c.iban 34), some (.alnum c.bic 11), some (.identification c.accountID 30),
    some (.identification c.sub 30), some (bankIdentification c.country c.bankID)]

/-- A text field of /repo/element/group_data_element_group.go:230-257: absent if
missing or empty, which `Val` (:269-287) reports as the empty text. -/
def textField (es : List Bytes) (i : Nat) : Str := unmarshalText (es.getD i [])

/-- /repo/element/group_data_element_group.go:226-287: the extracted elements.  The bank
ID is put together again and taken apart once more. -/
def internationalParts (es : List Bytes) : Outcome InternationalConnection :=
  if es = [] then .err
  else
    let c := InternationalConnection.mk (textField es 0) (textField es 1) (textField es 2) (textField es 3)
    if es.getD 4 [] = [] then .ok (c 0 [])
    else
      (unmarshalBankIdentification (join 58 (es.drop 4))).bind fun r =>
        match r.1 with
        | none => .panic
        | some n => .ok (c n r.2)

/-- /repo/element/group_data_element_group.go:221-266
`InternationalAccountConnectionDataElement.UnmarshalHBCI` followed by `Val` (:269-287),
which panics if the country code of a bank ID holds no value. -/
def unmarshalInternational (b : Bytes) : Outcome InternationalConnection :=
  (extractElements b).bind internationalParts

/-- /repo/domain/balance.go:6-10 `Balance`. -/
structure Balance where
  amount : Amount
  date : Time.Civil
  time : Option Time.Civil
  deriving DecidableEq, Repr

/-- /repo/element/group_data_element_group.go:290-308 `NewBalance`: `math.Abs` and the
test `< 0` on the canonical decimals of the model. -/
def balanceDE (amount : Amount) (date : Time.Civil) (withTime : Bool) : DE :=
  let negative := amount.amount.neg && (amount.amount.int != 0 || amount.amount.frac != [])
  .group 5 [some (.alnum (if negative then c!"D" else c!"C") 1), some (.value { amount.amount with neg := false } 15),
    some (.currency amount.currency 3), some (.date date), if withTime then some (.time date) else none]

/-- Negation of a float. -/
def Dec.negate (x : Dec) : Dec := { x with neg := !x.neg }

/-- /repo/element/group_data_element_group.go:332-352 `Balance`. -/
def balanceOf (indicator : Str) (x : Dec) (currency : Str) (date : Time.Civil) (time : Option Time.Civil) : Balance :=
  ⟨⟨if indicator = c!"D" then x.negate else x, currency⟩, date, time⟩

/-- /repo/element/group_data_element_group.go:383-389: the optional time. -/
def balanceTime : List Bytes → Outcome (Option Time.Civil)
  | [t] => (unmarshalTime t).map' some
  | _ => .ok none

/-- /repo/element/group_data_element_group.go:360-391: the extracted elements. -/
def balanceParts : List Bytes → Outcome Balance
  | i :: v :: c :: d :: rest =>
    (unmarshalFloat v).bind fun x =>
      (unmarshalDate d).bind fun date =>
        (balanceTime rest).map' fun time => balanceOf (unmarshalText i) x (unmarshalText c) date time
  | _ => .err

/-- /repo/element/group_data_element_group.go:355-392 `BalanceDataElement.UnmarshalHBCI`
followed by `Balance`: the time is read only if there are exactly five elements. -/
def unmarshalBalance (b : Bytes) : Outcome Balance := (extractElements b).bind balanceParts

/-- /repo/domain/account_limit.go:4-8 `AccountLimit`. -/
structure Limit where
  kind : Str
  amount : Amount
  days : Int
  deriving DecidableEq, Repr

/-- /repo/domain/business_transaction.go:11-15 `BusinessTransaction`. -/
structure BusinessTransaction where
  id : Str
  signatures : Int
  limit : Option Limit
  deriving DecidableEq, Repr

/-- /repo/element/user_parameter_data.go:101-113 `NewAllowedBusinessTransaction`. -/
def businessTransactionDE (t : BusinessTransaction) : DE :=
  .group 5 ([some (.alnum t.id 6), some (.number t.signatures 2)] ++
    match t.limit with
    | none => [none, none, none]
    | some l => [some (.alnum l.kind 1), some (amountDE l.amount), some (.number l.days 3)])

/-- An optional field of /repo/element/user_parameter_data.go:153-173. -/
def optField {α : Type} (es : List Bytes) (i : Nat) (f : Bytes → Outcome α) : Outcome (Option α) :=
  if es.getD i [] = [] then .ok none else (f (es.getD i [])).map' some

/-- The zero amount. -/
def zeroAmount : Amount := ⟨⟨false, 0, []⟩, []⟩

/-- /repo/element/user_parameter_data.go:142-174 and `Val` (:178-194): the extracted
elements. -/
def businessParts (es : List Bytes) : Outcome BusinessTransaction :=
  (unmarshalNumber (es.getD 1 [])).bind fun signatures =>
    (optField es 2 fun k => .ok (unmarshalText k)).bind fun kind =>
      (optField es 3 unmarshalAmount).bind fun amount =>
        (optField es 4 unmarshalNumber).map' fun days =>
          ⟨unmarshalText (es.getD 0 []), signatures, kind.map fun k => ⟨k, amount.getD zeroAmount, days.getD 0⟩⟩

/-- /repo/element/user_parameter_data.go:134-175
`AllowedBusinessTransactionDataElement.UnmarshalHBCI` followed by `Val` (:178-194). -/
def unmarshalBusinessTransaction (b : Bytes) : Outcome BusinessTransaction :=
  (extractElements b).bind fun es =>
    if es.length < 2 then .err else businessParts es

/-- The loop of /repo/element/user_parameter_data.go:77-84. -/
def unmarshalBusinessTransactionList : List Bytes → Outcome (List BusinessTransaction)
  | [] => .ok []
  | e :: es =>
    (unmarshalBusinessTransaction e).bind fun t => (unmarshalBusinessTransactionList es).map' fun ts => t :: ts

/-- /repo/element/user_parameter_data.go:74-89
`AllowedBusinessTransactionsDataElement.UnmarshalHBCI`: a plain split at `+`. -/
def unmarshalBusinessTransactions (b : Bytes) : Outcome (List BusinessTransaction) :=
  unmarshalBusinessTransactionList (split 43 b)

/-- /repo/element/encryption.go:22-33 `NewRDHEncryptionAlgorithm` and, with key parameter
"5" and the key of /repo/element/pin.go:10, :7-18 `NewPinTanEncryptionAlgorithm`. -/
def encryptionAlgorithm (keyParam : Str) (key : Bytes) : DE :=
  .group 7 [some (.alnum c!"2" 3), some (.alnum c!"2" 3), some (.alnum c!"13" 3),
    some (.binary key 512), some (.alnum keyParam 3), some (.alnum c!"1" 3), none]

/-- The values an `EncryptionAlgorithmDataElement` receiver holds: the pointers of
/repo/element/encryption.go:36-50. -/
structure EncryptionAlgorithm where
  usage : Option Str
  operationMode : Option Str
  algorithm : Option Str
  key : Option Bytes
  keyParam : Option Str
  ivParam : Option Str
  iv : Option Bytes
  deriving DecidableEq, Repr

/-- /repo/element/encryption.go:66-122 `UnmarshalHBCI`: the receiver afterwards and
whether there was no error.  The first statement (:67) points the receiver variable
at a new element, so the caller's element never changes. -/
def unmarshalEncryptionAlgorithm (old : EncryptionAlgorithm) (b : Bytes) : Outcome EncryptionAlgorithm :=
  (extractElements b).bind fun es =>
    if es.length < 7 then .err
    else
      (optField es 3 unmarshalBinary).bind fun _ =>
        (optField es 6 unmarshalBinary).map' fun _ => old

/-- /repo/element/signature_fints3.go:24-42 `SecurityProfileDataElement.UnmarshalHBCI`:
as above, the receiver stays as it was. -/
def unmarshalSecurityProfile (old : Option (Str × Int)) (b : Bytes) : Outcome (Option (Str × Int)) :=
  (extractElements b).bind fun es =>
    match es with
    | _ :: n :: _ => (unmarshalNumber n).map' fun _ => old
    | _ => .err

end Verif.Element

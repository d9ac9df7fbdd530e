import Verif.Message.Reader

/-
Model of the data elements that only the bank's segments hold: element/pin.go,
element/tan.go, element/bank_parameter_data.go, element/signature.go,
element/data_element.go (groups read by reflection) and internal/iterator.go.
-/

namespace Verif.Bank

open GoLib Element Segment Message

/-- A Go string made from bytes by `string(b)`, without any conversion: its UTF-8 form. -/
abbrev Raw := Bytes

/-! ## International account connections -/

/-- The pointers of /repo/element/group_data_element_group.go:200-207
`InternationalAccountConnectionDataElement` after reading: a nil text is reported as the
empty text by `Val`; `bank` holds the country code, `none` if it holds no value, and the ID. -/
structure ReadInternational where
  iban : Str
  bic : Str
  accountID : Str
  sub : Str
  bank : Option (Option Int × Str)
  deriving DecidableEq, Repr

/-- /repo/element/group_data_element_group.go:226-263: the extracted elements. -/
def readInternationalParts (es : List Bytes) : Outcome ReadInternational :=
  if es = [] then .err
  else
    let c := ReadInternational.mk (textField es 0) (textField es 1) (textField es 2) (textField es 3)
    if es.getD 4 [] = [] then .ok (c none)
    else (unmarshalBankIdentification (join 58 (es.drop 4))).map' fun r => c (some r)

/-- /repo/element/group_data_element_group.go:221-266
`InternationalAccountConnectionDataElement.UnmarshalHBCI`. -/
def readInternational (b : Bytes) : Outcome ReadInternational := (Element.extractElements b).bind readInternationalParts

/-- /repo/element/group_data_element_group.go:269-287 `Val`: a country code without a value
panics. -/
def ReadInternational.val (r : ReadInternational) : Outcome InternationalConnection :=
  match r.bank with
  | none => .ok ⟨r.iban, r.bic, r.accountID, r.sub, 0, []⟩
  | some (none, _) => .panic
  | some (some n, id) => .ok ⟨r.iban, r.bic, r.accountID, r.sub, n, id⟩

/-- /repo/domain/account_connection.go:22-29 `ToAccountConnection`. -/
def toAccountConnection (c : InternationalConnection) : AccountConnection := ⟨c.accountID, c.sub, c.country, c.bankID⟩

/-! ## Bank parameters -/

/-- The loop of /repo/element/bank_parameter_data.go:119-125. -/
def unmarshalNumbers (bound : Int → Bool) : List Bytes → Outcome (List Int)
  | [] => .ok []
  | e :: es =>
    (Outcome.ofOption (atoi e)).bind fun n =>
      if bound n then (unmarshalNumbers bound es).map' fun ns => n :: ns else .err

/-- /repo/element/bank_parameter_data.go:110-128 `SupportedHBCIVersionsDataElement.UnmarshalHBCI`. -/
def unmarshalVersions (b : Bytes) : Outcome (List Int) :=
  (Element.extractElements b).bind fun es =>
    if es.length = 0 ∨ 9 < es.length then .err else unmarshalNumbers (fun _ => true) es

/-- /repo/element/bank_parameter_data.go:160-181 `SupportedLanguagesDataElement.UnmarshalHBCI`:
`sort.SearchInts([]int{1, 2, 3}, n) >= 3` is the case for `3 < n`. -/
def unmarshalLanguages (b : Bytes) : Outcome (List Int) :=
  (Element.extractElements b).bind fun es =>
    if es.length = 0 ∨ 9 < es.length then .err else unmarshalNumbers (fun n => n ≤ 3) es

/-- /repo/element/bank_parameter_data.go:281-295 `PinTanBusinessTransactionParameter.UnmarshalHBCI`
and `Val`: the segment ID is not unescaped; `elements[0]` and `elements[1]` panic if there are
fewer. -/
def unmarshalPinJob (b : Bytes) : Outcome (Str × Bool) :=
  (Element.extractElements b).bind fun es =>
    match es with
    | i :: t :: _ => (unmarshalBool t).map' fun needs => (Charset.toUTF8 i, needs)
    | _ => .panic

/-- The loop of /repo/element/bank_parameter_data.go:243-251, two elements at a time. -/
def unmarshalPinJobList : List Bytes → Outcome (List (Str × Bool))
  | i :: t :: es =>
    (unmarshalPinJob (join 58 [i, t])).bind fun j => (unmarshalPinJobList es).map' fun js => j :: js
  | _ => .ok []

/-- /repo/element/bank_parameter_data.go:234-254
`PinTanBusinessTransactionParameters.UnmarshalHBCI` and `Val`. -/
def unmarshalPinJobs (b : Bytes) : Outcome (List (Str × Bool)) :=
  (Element.extractElements b).bind fun es => if es.length % 2 ≠ 0 then .err else unmarshalPinJobList es

/-- /repo/internal/iterator.go:20-31: the element at a position, nil after the last. -/
def next (es : List Bytes) (i : Nat) : Bytes := es.getD i []

/-- /repo/element/pin.go:88-96 `PinTanSpecificParamDataElement`. -/
structure PinParams where
  pinMinLength : Int
  pinMaxLength : Int
  tanMaxLength : Int
  userIdText : Str
  customerIdText : Str
  jobs : List (Str × Bool)
  deriving DecidableEq, Repr

/-- /repo/element/pin.go:111-149 `PinTanSpecificParamDataElement.UnmarshalHBCI`. -/
def unmarshalPinParams (b : Bytes) : Outcome PinParams :=
  (Element.extractElements b).bind fun es =>
    (unmarshalNumber (next es 0)).bind fun pmin =>
      (unmarshalNumber (next es 1)).bind fun pmax =>
        (unmarshalNumber (next es 2)).bind fun tmax =>
          (unmarshalPinJobs (join 58 (es.drop 5))).map' fun jobs =>
            ⟨pmin, pmax, tmax, unmarshalText (next es 3), unmarshalText (next es 4), jobs⟩

/-! ## Two step TAN parameters -/

/-- The parts of a `Tan2StepSubmissionProcessParameterV6` (/repo/element/tan.go:158-181) that are
read: the security function and the name.  Simplification: the other nineteen values are checked
but not kept; nothing reads them. -/
structure TanProcess where
  securityFunction : Raw
  name : Raw
  deriving DecidableEq, Repr

/-- /repo/element/tan.go:217-278 `Tan2StepSubmissionProcessParameterV6.UnmarshalHBCI`. -/
def unmarshalTanProcess (b : Bytes) : Outcome TanProcess :=
  (Element.extractElements b).bind fun es =>
    (unmarshalNumber (next es 6)).bind fun _ =>
      (unmarshalNumber (next es 9)).bind fun _ =>
        (unmarshalBool (next es 10)).bind fun _ =>
          (unmarshalBool (next es 12)).bind fun _ =>
            (unmarshalBool (next es 15)).bind fun _ =>
              (unmarshalBool (next es 16)).bind fun _ =>
                (unmarshalBool (next es 19)).bind fun _ =>
                  (unmarshalNumber (next es 20)).map' fun _ => ⟨next es 0, next es 5⟩

/-- The loop of /repo/element/tan.go:145-153, 21 elements at a time; `n` is the number of turns. -/
def unmarshalTanProcessList : Nat → List Bytes → Outcome (List TanProcess)
  | 0, _ => .ok []
  | n + 1, es =>
    (unmarshalTanProcess (join 58 (es.take 21))).bind fun p =>
      (unmarshalTanProcessList n (es.drop 21)).map' fun ps => p :: ps

/-- /repo/element/tan.go:136-156 `Tan2StepSubmissionProcessParametersV6.UnmarshalHBCI`. -/
def unmarshalTanProcesses (b : Bytes) : Outcome (List TanProcess) :=
  (Element.extractElements b).bind fun es =>
    if es.length % 21 ≠ 0 then .err else unmarshalTanProcessList (es.length / 21) es

/-- /repo/element/tan.go:36-66 `Tan2StepSubmissionParameterV6`. -/
structure TanParams where
  oneStepAllowed : Bool
  moreThanOneAllowed : Bool
  hashMethod : Str
  processes : List TanProcess
  deriving DecidableEq, Repr

/-- /repo/element/tan.go:79-105 `Tan2StepSubmissionParameterV6.UnmarshalHBCI`: the accesses by
index panic when the element is missing, one after the other. -/
def unmarshalTanParams (b : Bytes) : Outcome TanParams :=
  (Element.extractElements b).bind fun es =>
    match es with
    | [] => .panic
    | a :: es =>
      (unmarshalBool a).bind fun one =>
        match es with
        | [] => .panic
        | m :: es =>
          (unmarshalBool m).bind fun more =>
            match es with
            | [] => .panic
            | h :: es => (unmarshalTanProcesses (join 58 es)).map' fun ps => ⟨one, more, Charset.toUTF8 h, ps⟩

/-! ## Elements whose values nothing reads

Simplification: these return no value; only success, error and panic are modelled. -/

/-- The read succeeded or not; the value is dropped. -/
def check {α : Type} (f : Bytes → Outcome α) (b : Bytes) : Outcome Unit := (f b).map' fun _ => ()

/-- Fields `i` of a group: nothing to do unless present and non-empty. -/
def checkFields (es : List Bytes) : List (Nat × (Bytes → Outcome Unit)) → Outcome Unit
  | [] => .ok ()
  | (i, f) :: rest => (field es i f).bind fun _ => checkFields es rest

/-- A text: never fails. -/
def anyText (_ : Bytes) : Outcome Unit := .ok ()

/-- A group that needs at least `n` elements, with its fields. -/
def checkGroup (n : Nat) (fs : List (Nat × (Bytes → Outcome Unit))) (b : Bytes) : Outcome Unit :=
  (Element.extractElements b).bind fun es => if es.length < n then .err else checkFields es fs

/-- /repo/element/signature.go:46-77 `SecurityIdentificationDataElement.UnmarshalHBCI`. -/
def checkSecurityId : Bytes → Outcome Unit := checkGroup 3 [(0, anyText), (1, check unmarshalBinary), (2, anyText)]

/-- /repo/element/signature.go:132-163 `SecurityDateDataElement.UnmarshalHBCI`. -/
def checkSecurityDate : Bytes → Outcome Unit := checkGroup 1 [(0, anyText), (1, check unmarshalDate), (2, check unmarshalTime)]

/-- /repo/element/signature.go:201-239 `HashAlgorithmDataElement.UnmarshalHBCI`. -/
def checkHashAlgorithm : Bytes → Outcome Unit :=
  checkGroup 3 [(0, anyText), (1, anyText), (2, anyText), (3, check unmarshalBinary)]

/-- /repo/element/signature.go:275-306 `SignatureAlgorithmDataElement.UnmarshalHBCI`. -/
def checkSignatureAlgorithm : Bytes → Outcome Unit := checkGroup 3 [(0, anyText), (1, anyText), (2, anyText)]

/-- /repo/element/signature.go:358-403 `KeyNameDataElement.UnmarshalHBCI`: the bank is read from
the first two elements together if the first is not empty. -/
def checkKeyName (b : Bytes) : Outcome Unit :=
  (Element.extractElements b).bind fun es =>
    if es.length < 6 then .err
    else
      (field es 0 fun _ => check unmarshalBankIdentification (join 58 (es.take 2))).bind fun _ =>
        checkFields es [(2, anyText), (3, anyText), (4, check unmarshalNumber), (5, check unmarshalNumber)]

/-- /repo/element/pin.go:62-86 `PinTanDataElement.UnmarshalHBCI`. -/
def checkPinTan : Bytes → Outcome Unit := checkGroup 2 [(0, anyText), (1, anyText)]

/-- `CustomSignatureDataElement` (/repo/element/pin.go:29-31) embeds a nil
`*PinTanDataElement`: the promoted `UnmarshalHBCI` (:62-86) runs on a nil receiver and panics
at its first assignment (:70). -/
def checkCustomSignature (b : Bytes) : Outcome Unit :=
  (Element.extractElements b).bind fun es => if es.length < 2 then .err else .panic

/-- An element whose type has no `UnmarshalHBCI` of its own: the promoted method is called on
a nil interface or through a nil pointer, which panics.  These are
`CertificateDataElement` (/repo/element/signature.go:416-423),
`AccountLimitDataElement` (/repo/element/user_parameter_data.go:22-33),
`CommunicationParameterDataElement` (/repo/element/communication_access.go:20-38),
`SupportedCompressionMethodsDataElement` (/repo/element/bank_parameter_data.go:185-187) and
`DisposalEligiblePersonsDataElement` (/repo/element/account.go:4-6). -/
def unmarshalNil {α : Type} (_ : Bytes) : Outcome α := .panic

/-- /repo/element/data_element.go:159-179 `elementGroup.UnmarshalHBCI` for
`SupportedSecurityMethodDataElement` (/repo/element/bank_parameter_data.go:46-49): the parts of
a plain split at `:` are read one after the other, empty ones are skipped.  The first is a text.
The second is a `SecurityMethodVersionsDataElement` (:74-78), whose nine elements are nil
interfaces, so that `reflect.TypeOf(elements[0]).Elem()` panics.  For the others there is no
element, and the index panics. -/
def checkSecurityMethod (b : Bytes) : Outcome Unit :=
  match split 58 b with
  | [] => .ok ()
  | _ :: rest => if rest.all (· == []) then .ok () else .panic

end Verif.Bank

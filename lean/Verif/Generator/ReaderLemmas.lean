import Verif.Generator.Readers
import Verif.Generator.Props

/-
The readers that are checked in, one by one, against what the generator makes of the source files (C129).
-/

namespace Verif.Generator

open GoLib Element Segment Message Bank

/-! ## Reading by kinds -/

/-- What the generator finds for a type, if the lines ascend and all types of elements are known. -/
def plan (file : File) (seg : Str) : Option (List (Str × Kind)) :=
  match file.types.lookup seg with
  | none => none
  | some ds =>
    match visit seg ds file.methods with
    | .ok fs =>
      if fs.Pairwise fun a b => a.line < b.line then fs.mapM fun f => (elementTypes.lookup f.typ).map fun k => (f.name, k)
      else none
    | _ => none

/-- The fields one after the other, the last one with the rest. -/
def readKinds (es : List Bytes) : Nat → List Kind → Outcome (List (Option Val))
  | _, [] => .ok []
  | i, [k] => (lastField es i k.read).bind fun v => .ok [v]
  | i, k :: l :: ks => (field es i k.read).bind fun v => (readKinds es (i + 1) (l :: ks)).bind fun vs => .ok (v :: vs)

theorem bind_congr {α β : Type} {o : Outcome α} {f g : α → Outcome β} (h : ∀ x, f x = g x) : o.bind f = o.bind g := by
  cases o <;> simp [h]

theorem bind_bind {α β γ : Type} (o : Outcome α) (f : α → Outcome β) (g : β → Outcome γ) :
    (o.bind f).bind g = o.bind fun x => (f x).bind g := by cases o <;> rfl

theorem map_bind {α β : Type} (o : Outcome α) (f : α → β) : o.map' f = o.bind fun x => .ok (f x) := by cases o <;> rfl

theorem bind_value {α β : Type} (a : α) (f : α → Outcome β) : (Outcome.ok a).bind f = f a := rfl

/-- The fields set so far. -/
def stateOf (st : Str → Option Val) : List Str → List (Option Val) → Str → Option Val
  | n :: ns, v :: vs => stateOf (fun x => if x = n then v else st x) ns vs
  | _, _ => st

theorem mapM_length {α β : Type} {f : α → Option β} {l : List α} {r : List β} (h : l.mapM f = some r) :
    r.length = l.length := by
  induction l generalizing r with
  | nil => simp only [List.mapM_nil, Option.pure_def, Option.some.injEq] at h; subst h; rfl
  | cons a l ih =>
    rw [List.mapM_cons] at h
    cases ha : f a with
    | none => simp [ha] at h
    | some b =>
      cases hl : l.mapM f with
      | none => simp [ha, hl] at h
      | some r' =>
        simp only [ha, hl, Option.bind_eq_bind, Option.bind_some, Option.pure_def, Option.some.injEq] at h
        subst h
        simp [ih hl]

theorem readFields_kinds {es : List Bytes} {fs : List Fld} {nks : List (Str × Kind)}
    (hk : fs.mapM (fun f => (elementTypes.lookup f.typ).map fun k => (f.name, k)) = some nks) {n idx : Nat}
    (hn : n = idx + fs.length) {st : Str → Option Val} (hd : (nks.map Prod.fst).Nodup)
    (hst : ∀ x ∈ nks.map Prod.fst, st x = none) :
    readFields readElement es n idx fs st =
      (readKinds es (idx + 1) (nks.map Prod.snd)).bind fun vs => .ok (stateOf st (nks.map Prod.fst) vs) := by
  induction fs generalizing nks idx st with
  | nil =>
    simp only [List.mapM_nil, Option.pure_def, Option.some.injEq] at hk
    subst hk
    rfl
  | cons f fs ih =>
    rw [List.mapM_cons] at hk
    cases hl : elementTypes.lookup f.typ with
    | none => simp [hl] at hk
    | some k =>
      cases hm : fs.mapM (fun f => (elementTypes.lookup f.typ).map fun k => (f.name, k)) with
      | none => simp [hl, hm] at hk
      | some r =>
        simp only [hl, hm, Option.map_some, Option.bind_eq_bind, Option.bind_some, Option.pure_def, Option.some.injEq] at hk
        subst hk
        have hread : readElement f.typ = k.read := by funext b; unfold readElement; rw [hl]
        have hlen : r.length = fs.length := mapM_length hm
        simp only [List.map_cons, List.nodup_cons] at hd
        simp only [List.map_cons, List.mem_cons] at hst
        have hupd : st = fun x => if x = f.name then none else st x := by
          funext x
          split
          · next h => subst h; exact hst _ (.inl rfl)
          · rfl
        simp only [readFields, readField_eq, hread]
        have hnext : ∀ v : Option Val, ∀ x ∈ r.map Prod.fst, (fun x => if x = f.name then v else st x) x = none := by
          intro v x hx
          have : x ≠ f.name := by rintro rfl; exact hd.1 hx
          simp only [this, if_false]
          exact hst _ (.inr hx)
        cases r with
        | nil =>
          have : fs = [] := List.eq_nil_of_length_eq_zero hlen.symm
          subst this
          have hn' : n = idx + 1 := hn
          simp only [hn', if_true, List.map_cons, List.map_nil, readKinds, readFields, bind_bind, bind_value, stateOf]
          refine bind_congr fun v => congrArg _ ?_
          cases v with
          | some v => rfl
          | none => exact hupd
        | cons p r =>
          have hn' : ¬ (n = idx + 1) := by
            rw [hn, List.length_cons, ← hlen, List.length_cons]; omega
          simp only [hn', if_false, List.map_cons, readKinds, bind_bind, bind_value]
          refine bind_congr fun v => ?_
          have := ih hm (idx := idx + 1) (by rw [hn, List.length_cons]; omega) hd.2 (hnext v)
          simp only [List.map_cons] at this
          cases v with
          | some v => exact this
          | none => exact (congrArg (readFields readElement es n (idx + 1) fs) hupd).trans this

/-- What the generated code of a type does, if the generator finds the given fields. -/
theorem generated_kinds {sort : List Fld → List Fld} (hs : SortsByLine sort) {file : File} {seg : Str}
    {nks : List (Str × Kind)} (hp : plan file seg = some nks) (hd : (nks.map Prod.fst).Nodup) :
    ∃ fs, extractFields sort file seg = .ok fs ∧
      ∀ b, generatedCode readElement fs b = generated b fun h es =>
        (readKinds es 1 (nks.map Prod.snd)).bind fun vs => .ok (h, stateOf (fun _ => none) (nks.map Prod.fst) vs) := by
  unfold plan at hp
  cases hl : file.types.lookup seg with
  | none => simp [hl] at hp
  | some ds =>
    simp only [hl] at hp
    cases hv : visit seg ds file.methods with
    | err => simp [hv] at hp
    | panic => simp [hv] at hp
    | ok fs =>
      simp only [hv] at hp
      by_cases ha : fs.Pairwise fun a b => a.line < b.line
      · rw [if_pos ha] at hp
        refine ⟨fs, ?_, ?_⟩
        · unfold extractFields
          rw [hl]
          simp only [hv, Outcome.map']
          rw [sort_id hs ha]
        · intro b
          unfold generatedCode
          congr 1
          funext h es
          rw [readFields_kinds hp (Nat.zero_add _).symm hd fun _ _ => rfl, map_bind, bind_bind]
          rfl
      · rw [if_neg ha] at hp; cases hp


/-! ## The readers one by one -/

theorem read_text : Kind.text.read = fun b => (Bank.text b).map' .text := rfl
theorem read_number : Kind.number.read = fun b => (unmarshalNumber b).map' .number := rfl
theorem read_binary : Kind.binary.read = fun b => (unmarshalBinary b).map' .binary := rfl
theorem read_date : Kind.date.read = fun b => (unmarshalDate b).map' .date := rfl
theorem read_time : Kind.time.read = fun b => (unmarshalTime b).map' .date := rfl
theorem read_bool : Kind.bool.read = fun b => (unmarshalBool b).map' fun _ => .unread := rfl
theorem read_value : Kind.value.read = fun b => (unmarshalFloat b).map' fun _ => .unread := rfl
theorem read_amount : Kind.amount.read = fun b => (unmarshalAmount b).map' .amount := rfl
theorem read_balance : Kind.balance.read = fun b => (unmarshalBalance b).map' .balance := rfl
theorem read_bankId : Kind.bankId.read = fun b => (unmarshalBankIdentification b).map' .bankId := rfl
theorem read_account : Kind.account.read = fun b => (unmarshalAccountConnection b).map' .account := rfl
theorem read_international : Kind.international.read = fun b => (readInternational b).map' .international := rfl
theorem read_languages : Kind.languages.read = fun b => (unmarshalLanguages b).map' .numbers := rfl
theorem read_versions : Kind.versions.read = fun b => (unmarshalVersions b).map' .numbers := rfl
theorem read_transactions : Kind.transactions.read = fun b => (unmarshalBusinessTransactions b).map' .transactions := rfl
theorem read_reference : Kind.reference.read = fun b => (unmarshalReference b).map' .reference := rfl
theorem read_acknowledgement : Kind.acknowledgement.read = fun b => (unmarshalAck b).map' .acknowledgement := rfl
theorem read_pinParams : Kind.pinParams.read = fun b => (unmarshalPinParams b).map' .pinParams := rfl
theorem read_tanParams : Kind.tanParams.read = fun b => (unmarshalTanParams b).map' .tanParams := rfl
theorem read_securityId : Kind.securityId.read = fun b => (checkSecurityId b).map' fun _ => .unread := rfl
theorem read_securityDate : Kind.securityDate.read = fun b => (checkSecurityDate b).map' fun _ => .unread := rfl
theorem read_hashAlgorithm : Kind.hashAlgorithm.read = fun b => (checkHashAlgorithm b).map' fun _ => .unread := rfl
theorem read_signatureAlgorithm : Kind.signatureAlgorithm.read = fun b => (checkSignatureAlgorithm b).map' fun _ => .unread := rfl
theorem read_encryptionAlgorithm : Kind.encryptionAlgorithm.read = fun b => (unmarshalEncryptionAlgorithm ⟨none, none, none, none, none, none, none⟩ b).map' fun _ => .unread := rfl
theorem read_keyName : Kind.keyName.read = fun b => (checkKeyName b).map' fun _ => .unread := rfl
theorem read_profile : Kind.profile.read = fun b => (unmarshalSecurityProfile none b).map' fun _ => .unread := rfl
theorem read_pinTan : Kind.pinTan.read = fun b => (checkPinTan b).map' fun _ => .unread := rfl
theorem read_customSignature : Kind.customSignature.read = fun b => (checkCustomSignature b).map' fun _ => .unread := rfl
theorem read_securityMethod : Kind.securityMethod.read = fun b => (checkSecurityMethod b).map' fun _ => .unread := rfl
theorem read_nil : Kind.nil.read = fun b => (unmarshalNil (α := Unit) b).map' fun _ => .unread := rfl

theorem check_map {α : Type} (f : Bytes → Outcome α) : check f = fun b => (f b).map' fun _ => () := rfl

theorem anyText_map : anyText = fun b => (text b).map' fun _ => () := rfl

theorem text_ok : (fun x => Outcome.ok (unmarshalText x)) = text := rfl

theorem generated_map {α β : Type} (b : Bytes) (k : Header → List Bytes → Outcome α) (f : α → β) :
    (generated b k).map' f = generated b fun h es => (k h es).map' f := by
  unfold generated
  cases Segment.extractElements b with
  | ok es =>
    cases es with
    | nil => rfl
    | cons e es =>
      simp only [Outcome.bind]
      cases unmarshalHeader e <;> rfl
  | err => rfl
  | panic => rfl

/-- The checked-in reader of a source is what the generator makes of it. -/
def Faithful (s : Source) (read : Bytes → Outcome BankSeg) : Prop :=
  ∀ sort, SortsByLine sort → ∃ fs, extractFields sort s.file s.type = .ok fs ∧
    ∀ b, read b = (generatedCode readElement fs b).map' s.seg

theorem faithful {s : Source} {read : Bytes → Outcome BankSeg} (nks : List (Str × Kind))
    (hp : plan s.file s.type = some nks) (hd : (nks.map Prod.fst).Nodup) (k : Header → List Bytes → Outcome BankSeg)
    (hr : ∀ b, read b = generated b k)
    (hk : ∀ h es, k h es = (readKinds es 1 (nks.map Prod.snd)).bind fun vs =>
      .ok (s.seg (h, stateOf (fun _ => none) (nks.map Prod.fst) vs))) : Faithful s read := by
  intro sort hs
  obtain ⟨fs, h1, h2⟩ := generated_kinds hs hp hd
  refine ⟨fs, h1, fun b => ?_⟩
  rw [hr, h2, generated_map]
  congr 1
  funext h es
  rw [hk, map_bind, bind_bind]
  rfl

theorem get_text {h : Header} {st : Str → Option Val} {n : Str} {x : Option (Str)} (e : st n = x.map .text) :
    x = Receiver.text (h, st) n := by
  unfold Receiver.text; simp only [e]; cases x <;> rfl

theorem get_number {h : Header} {st : Str → Option Val} {n : Str} {x : Option (Int)} (e : st n = x.map .number) :
    x = Receiver.number (h, st) n := by
  unfold Receiver.number; simp only [e]; cases x <;> rfl

theorem get_binary {h : Header} {st : Str → Option Val} {n : Str} {x : Option (Bytes)} (e : st n = x.map .binary) :
    x = Receiver.binary (h, st) n := by
  unfold Receiver.binary; simp only [e]; cases x <;> rfl

theorem get_date {h : Header} {st : Str → Option Val} {n : Str} {x : Option (Time.Civil)} (e : st n = x.map .date) :
    x = Receiver.date (h, st) n := by
  unfold Receiver.date; simp only [e]; cases x <;> rfl

theorem get_amount {h : Header} {st : Str → Option Val} {n : Str} {x : Option (Amount)} (e : st n = x.map .amount) :
    x = Receiver.amount (h, st) n := by
  unfold Receiver.amount; simp only [e]; cases x <;> rfl

theorem get_balance {h : Header} {st : Str → Option Val} {n : Str} {x : Option (Balance)} (e : st n = x.map .balance) :
    x = Receiver.balance (h, st) n := by
  unfold Receiver.balance; simp only [e]; cases x <;> rfl

theorem get_bankId {h : Header} {st : Str → Option Val} {n : Str} {x : Option (Option Int × Str)} (e : st n = x.map .bankId) :
    x = Receiver.bankId (h, st) n := by
  unfold Receiver.bankId; simp only [e]; cases x <;> rfl

theorem get_account {h : Header} {st : Str → Option Val} {n : Str} {x : Option (AccountConnection)} (e : st n = x.map .account) :
    x = Receiver.account (h, st) n := by
  unfold Receiver.account; simp only [e]; cases x <;> rfl

theorem get_international {h : Header} {st : Str → Option Val} {n : Str} {x : Option (ReadInternational)} (e : st n = x.map .international) :
    x = Receiver.international (h, st) n := by
  unfold Receiver.international; simp only [e]; cases x <;> rfl

theorem get_numbers {h : Header} {st : Str → Option Val} {n : Str} {x : Option (List Int)} (e : st n = x.map .numbers) :
    x = Receiver.numbers (h, st) n := by
  unfold Receiver.numbers; simp only [e]; cases x <;> rfl

theorem get_transactions {h : Header} {st : Str → Option Val} {n : Str} {x : Option (List BusinessTransaction)} (e : st n = x.map .transactions) :
    x = Receiver.transactions (h, st) n := by
  unfold Receiver.transactions; simp only [e]; cases x <;> rfl

theorem get_reference {h : Header} {st : Str → Option Val} {n : Str} {x : Option (Str × Int)} (e : st n = x.map .reference) :
    x = Receiver.reference (h, st) n := by
  unfold Receiver.reference; simp only [e]; cases x <;> rfl

theorem get_acknowledgement {h : Header} {st : Str → Option Val} {n : Str} {x : Option (AckEntry)} (e : st n = x.map .acknowledgement) :
    x = Receiver.acknowledgement (h, st) n := by
  unfold Receiver.acknowledgement; simp only [e]; cases x <;> rfl

theorem get_pinParams {h : Header} {st : Str → Option Val} {n : Str} {x : Option (PinParams)} (e : st n = x.map .pinParams) :
    x = Receiver.pinParams (h, st) n := by
  unfold Receiver.pinParams; simp only [e]; cases x <;> rfl

theorem get_tanParams {h : Header} {st : Str → Option Val} {n : Str} {x : Option (TanParams)} (e : st n = x.map .tanParams) :
    x = Receiver.tanParams (h, st) n := by
  unfold Receiver.tanParams; simp only [e]; cases x <;> rfl

/-- Both sides as a chain of fields, then the values by name. -/
syntax "reader" : tactic

macro_rules
  | `(tactic| reader) => `(tactic| (
      intro h es
      simp only [readKinds, List.map_cons, List.map_nil, read_text, read_number, read_binary, read_date, read_time, read_bool, read_value, read_amount, read_balance, read_bankId, read_account, read_international, read_languages, read_versions, read_transactions, read_reference, read_acknowledgement, read_pinParams, read_tanParams, read_securityId, read_securityDate, read_hashAlgorithm, read_signatureAlgorithm, read_encryptionAlgorithm, read_keyName, read_profile, read_pinTan, read_customSignature, read_securityMethod, read_nil,
        check_map, anyText_map, text_ok, checkFields, field_map, lastField_map, bankParamsHead, accountTail, balanceHead, Nat.reduceAdd]
      simp only [map_bind, bind_bind, bind_value]
      repeat (refine bind_congr fun _ => ?_)
      refine congrArg Outcome.ok ?_
      simp only [asAccount, asAnnouncement, asBalance, asBankParams, asEncryptedData, asInternationalBalance, asMessageHeader, asPinParams, asStatement, asStatus, asSync, asTanParams, asTanResponse, asUnread, asUserParams, balanceOf]
      try congr 2
      all_goals first
        | rfl
        | exact get_text rfl
        | exact get_number rfl
        | exact get_binary rfl
        | exact get_date rfl
        | exact get_amount rfl
        | exact get_balance rfl
        | exact get_bankId rfl
        | exact get_account rfl
        | exact get_international rfl
        | exact get_numbers rfl
        | exact get_transactions rfl
        | exact get_reference rfl
        | exact get_acknowledgement rfl
        | exact get_pinParams rfl
        | exact get_tanParams rfl))

theorem faithful_HNHBK3 : Faithful ⟨c!"HNHBK", 3, messageHeaderFile, c!"MessageHeaderSegment", asMessageHeader⟩
    fun b => (unmarshalMsgHeader b).map' .messageHeader := by
  refine faithful
    [(c!"Size", .number),
     (c!"HBCIVersion", .number),
     (c!"DialogID", .text),
     (c!"Number", .number),
     (c!"Ref", .reference)]
    (by decide +kernel) (by decide +kernel) _ (fun b => generated_map b _ _) ?_
  reader

theorem faithful_HNHBS1 : Faithful ⟨c!"HNHBS", 1, messageEndFile, c!"MessageEndSegment", asUnread⟩
    fun b => (unmarshalMsgEnd b).map' .unread := by
  refine faithful
    [(c!"Number", .number)]
    (by decide +kernel) (by decide +kernel) _ (fun b => generated_map b _ _) ?_
  reader

theorem faithful_HNVSK2 : Faithful ⟨c!"HNVSK", 2, encryptionHeaderFile, c!"EncryptionHeaderV2", asUnread⟩
    fun b => (unmarshalEncryptionV2 b).map' .unread := by
  refine faithful
    [(c!"SecurityFunction", .text),
     (c!"SecuritySupplierRole", .text),
     (c!"SecurityID", .securityId),
     (c!"SecurityDate", .securityDate),
     (c!"EncryptionAlgorithm", .encryptionAlgorithm),
     (c!"KeyName", .keyName),
     (c!"CompressionFunction", .text),
     (c!"Certificate", .nil)]
    (by decide +kernel) (by decide +kernel) _ (fun b => generated_map b _ _) ?_
  reader

theorem faithful_HNVSK3 : Faithful ⟨c!"HNVSK", 3, encryptionHeaderFile, c!"EncryptionHeaderSegmentV3", asUnread⟩
    fun b => (unmarshalEncryptionV3 b).map' .unread := by
  refine faithful
    [(c!"SecurityProfile", .profile),
     (c!"SecurityFunction", .text),
     (c!"SecuritySupplierRole", .text),
     (c!"SecurityID", .securityId),
     (c!"SecurityDate", .securityDate),
     (c!"EncryptionAlgorithm", .encryptionAlgorithm),
     (c!"KeyName", .keyName),
     (c!"CompressionFunction", .text),
     (c!"Certificate", .nil)]
    (by decide +kernel) (by decide +kernel) _ (fun b => generated_map b _ _) ?_
  reader

theorem faithful_HNVSD1 : Faithful ⟨c!"HNVSD", 1, encryptedDataFile, c!"EncryptedDataSegment", asEncryptedData⟩
    fun b => (unmarshalEncryptedData b).map' .encryptedData := by
  refine faithful
    [(c!"Data", .binary)]
    (by decide +kernel) (by decide +kernel) _ (fun b => generated_map b _ _) ?_
  reader

theorem faithful_HNSHK3 : Faithful ⟨c!"HNSHK", 3, signatureHeaderFile, c!"SignatureHeaderV3", asUnread⟩
    fun b => (unmarshalSignatureV3 b).map' .unread := by
  refine faithful
    [(c!"SecurityFunction", .text),
     (c!"SecurityControlRef", .text),
     (c!"SecurityApplicationRange", .text),
     (c!"SecuritySupplierRole", .text),
     (c!"SecurityID", .securityId),
     (c!"SecurityRefNumber", .number),
     (c!"SecurityDate", .securityDate),
     (c!"HashAlgorithm", .hashAlgorithm),
     (c!"SignatureAlgorithm", .signatureAlgorithm),
     (c!"KeyName", .keyName),
     (c!"Certificate", .nil)]
    (by decide +kernel) (by decide +kernel) _ (fun b => generated_map b _ _) ?_
  reader

theorem faithful_HNSHK4 : Faithful ⟨c!"HNSHK", 4, signatureHeaderFile, c!"SignatureHeaderSegmentV4", asUnread⟩
    fun b => (unmarshalSignatureV4 b).map' .unread := by
  refine faithful
    [(c!"SecurityProfile", .profile),
     (c!"SecurityFunction", .text),
     (c!"SecurityControlRef", .text),
     (c!"SecurityApplicationRange", .text),
     (c!"SecuritySupplierRole", .text),
     (c!"SecurityID", .securityId),
     (c!"SecurityRefNumber", .number),
     (c!"SecurityDate", .securityDate),
     (c!"HashAlgorithm", .hashAlgorithm),
     (c!"SignatureAlgorithm", .signatureAlgorithm),
     (c!"KeyName", .keyName),
     (c!"Certificate", .nil)]
    (by decide +kernel) (by decide +kernel) _ (fun b => generated_map b _ _) ?_
  reader

theorem faithful_HNSHA1 : Faithful ⟨c!"HNSHA", 1, signatureEndFile, c!"SignatureEndV1", asUnread⟩
    fun b => (unmarshalSignatureEndV1 b).map' .unread := by
  refine faithful
    [(c!"SecurityControlRef", .text),
     (c!"Signature", .binary),
     (c!"PinTan", .pinTan)]
    (by decide +kernel) (by decide +kernel) _ (fun b => generated_map b _ _) ?_
  reader

theorem faithful_HNSHA2 : Faithful ⟨c!"HNSHA", 2, signatureEndFile, c!"SignatureEndV2", asUnread⟩
    fun b => (unmarshalSignatureEndV2 b).map' .unread := by
  refine faithful
    [(c!"SecurityControlRef", .text),
     (c!"Signature", .binary),
     (c!"CustomSignature", .customSignature)]
    (by decide +kernel) (by decide +kernel) _ (fun b => generated_map b _ _) ?_
  reader

theorem faithful_HISYN3 : Faithful ⟨c!"HISYN", 3, syncSourceFile, c!"SynchronisationResponseSegmentV3", asSync⟩
    fun b => (unmarshalSync b).map' .sync := by
  refine faithful
    [(c!"ClientSystemIDResponse", .text),
     (c!"MessageNumberResponse", .number),
     (c!"SignatureIDResponse", .number)]
    (by decide +kernel) (by decide +kernel) _ (fun b => generated_map b _ _) ?_
  reader

theorem faithful_HISYN4 : Faithful ⟨c!"HISYN", 4, syncSourceFile, c!"SynchronisationResponseSegmentV4", asSync⟩
    fun b => (unmarshalSync b).map' .sync := by
  refine faithful
    [(c!"ClientSystemIDResponse", .text),
     (c!"MessageNumberResponse", .number),
     (c!"SignatureIDResponse", .number)]
    (by decide +kernel) (by decide +kernel) _ (fun b => generated_map b _ _) ?_
  reader

theorem faithful_HIBPA2 : Faithful ⟨c!"HIBPA", 2, commonBankParameterDataFile, c!"CommonBankParameterV2", asBankParams⟩
    fun b => (unmarshalBankParamsV2 b).map' .bankParams := by
  refine faithful
    [(c!"BPDVersion", .number),
     (c!"BankID", .bankId),
     (c!"BankName", .text),
     (c!"BusinessTransactionCount", .number),
     (c!"SupportedLanguages", .languages),
     (c!"SupportedHBCIVersions", .versions),
     (c!"MaxMessageSize", .number)]
    (by decide +kernel) (by decide +kernel) _ (fun b => generated_map b _ _) ?_
  reader

theorem faithful_HIBPA3 : Faithful ⟨c!"HIBPA", 3, commonBankParameterDataFile, c!"CommonBankParameterV3", asBankParams⟩
    fun b => (unmarshalBankParamsV3 b).map' .bankParams := by
  refine faithful
    [(c!"BPDVersion", .number),
     (c!"BankID", .bankId),
     (c!"BankName", .text),
     (c!"BusinessTransactionCount", .number),
     (c!"SupportedLanguages", .languages),
     (c!"SupportedHBCIVersions", .versions),
     (c!"MaxMessageSize", .number),
     (c!"MinTimeoutValue", .number),
     (c!"MaxTimeoutValue", .number)]
    (by decide +kernel) (by decide +kernel) _ (fun b => generated_map b _ _) ?_
  reader

theorem faithful_HIUPA2 : Faithful ⟨c!"HIUPA", 2, userParameterDataFile, c!"CommonUserParameterDataV2", asUserParams 2⟩
    fun b => (unmarshalUserParamsV2 b).map' .userParams := by
  refine faithful
    [(c!"UserID", .text),
     (c!"UPDVersion", .number),
     (c!"UPDUsage", .number)]
    (by decide +kernel) (by decide +kernel) _ (fun b => generated_map b _ _) ?_
  reader

theorem faithful_HIUPA3 : Faithful ⟨c!"HIUPA", 3, userParameterDataFile, c!"CommonUserParameterDataV3", asUserParams 3⟩
    fun b => (unmarshalUserParams 3 b).map' .userParams := by
  refine faithful
    [(c!"UserID", .text),
     (c!"UPDVersion", .number),
     (c!"UPDUsage", .number),
     (c!"UserName", .text),
     (c!"CommonExtensions", .text)]
    (by decide +kernel) (by decide +kernel) _ (fun b => generated_map b _ _) ?_
  reader

theorem faithful_HIUPA4 : Faithful ⟨c!"HIUPA", 4, userParameterDataFile, c!"CommonUserParameterDataV4", asUserParams 4⟩
    fun b => (unmarshalUserParams 4 b).map' .userParams := by
  refine faithful
    [(c!"UserID", .text),
     (c!"UPDVersion", .number),
     (c!"UPDUsage", .number),
     (c!"UserName", .text),
     (c!"CommonExtensions", .text)]
    (by decide +kernel) (by decide +kernel) _ (fun b => generated_map b _ _) ?_
  reader

theorem faithful_HIUPD4 : Faithful ⟨c!"HIUPD", 4, basicAccountInformationFile, c!"AccountInformationV4", asAccount 4⟩
    fun b => (unmarshalAccountV4 b).map' .account := by
  refine faithful
    [(c!"AccountConnection", .account),
     (c!"UserID", .text),
     (c!"AccountCurrency", .text),
     (c!"Name1", .text),
     (c!"Name2", .text),
     (c!"AccountProductID", .text),
     (c!"AccountLimit", .nil),
     (c!"AllowedBusinessTransactions", .transactions)]
    (by decide +kernel) (by decide +kernel) _ (fun b => generated_map b _ _) ?_
  reader

theorem faithful_HIUPD5 : Faithful ⟨c!"HIUPD", 5, basicAccountInformationFile, c!"AccountInformationV5", asAccount 5⟩
    fun b => (unmarshalAccountV5 b).map' .account := by
  refine faithful
    [(c!"AccountConnection", .account),
     (c!"UserID", .text),
     (c!"AccountType", .number),
     (c!"AccountCurrency", .text),
     (c!"Name1", .text),
     (c!"Name2", .text),
     (c!"AccountProductID", .text),
     (c!"AccountLimit", .nil),
     (c!"AllowedBusinessTransactions", .transactions)]
    (by decide +kernel) (by decide +kernel) _ (fun b => generated_map b _ _) ?_
  reader

theorem faithful_HIUPD6 : Faithful ⟨c!"HIUPD", 6, basicAccountInformationFile, c!"AccountInformationV6", asAccount 6⟩
    fun b => (unmarshalAccount 6 b).map' .account := by
  refine faithful
    [(c!"AccountConnection", .account),
     (c!"IBAN", .text),
     (c!"UserID", .text),
     (c!"AccountType", .number),
     (c!"AccountCurrency", .text),
     (c!"Name1", .text),
     (c!"Name2", .text),
     (c!"AccountProductID", .text),
     (c!"AccountLimit", .nil),
     (c!"AllowedBusinessTransactions", .transactions),
     (c!"AccountExtensions", .text)]
    (by decide +kernel) (by decide +kernel) _ (fun b => generated_map b _ _) ?_
  reader

theorem faithful_HIUPD7 : Faithful ⟨c!"HIUPD", 7, basicAccountInformationFile, c!"AccountInformationV7", asAccount 7⟩
    fun b => (unmarshalAccount 7 b).map' .account := by
  refine faithful
    [(c!"AccountConnection", .account),
     (c!"IBAN", .text),
     (c!"UserID", .text),
     (c!"AccountType", .number),
     (c!"AccountCurrency", .text),
     (c!"Name1", .text),
     (c!"Name2", .text),
     (c!"AccountProductID", .text),
     (c!"AccountLimit", .nil),
     (c!"AllowedBusinessTransactions", .transactions),
     (c!"AccountExtensions", .text)]
    (by decide +kernel) (by decide +kernel) _ (fun b => generated_map b _ _) ?_
  reader

theorem faithful_HIPINS1 : Faithful ⟨c!"HIPINS", 1, pinBpdFile, c!"PinTanBankParameterV1", asPinParams⟩
    fun b => (unmarshalPinParamsSeg b).map' .pinParams := by
  refine faithful
    [(c!"MaxJobs", .number),
     (c!"MinSignatures", .number),
     (c!"XXX_Unknown", .number),
     (c!"PinTanSpecificParams", .pinParams)]
    (by decide +kernel) (by decide +kernel) _ (fun b => generated_map b _ _) ?_
  reader

theorem faithful_HITANS6 : Faithful ⟨c!"HITANS", 6, tanBpdFile, c!"TanBankParameterV6", asTanParams⟩
    fun b => (unmarshalTanParamsSeg b).map' .tanParams := by
  refine faithful
    [(c!"MaxJobs", .number),
     (c!"MinSignatures", .number),
     (c!"SecurityClass", .text),
     (c!"Tan2StepSubmissionParameter", .tanParams)]
    (by decide +kernel) (by decide +kernel) _ (fun b => generated_map b _ _) ?_
  reader

theorem faithful_HITAN6 : Faithful ⟨c!"HITAN", 6, tanFile, c!"TanResponseSegmentV6", asTanResponse⟩
    fun b => (unmarshalTanResponse b).map' .tanResponse := by
  refine faithful
    [(c!"TANProcess", .text),
     (c!"JobHash", .binary),
     (c!"JobReference", .text)]
    (by decide +kernel) (by decide +kernel) _ (fun b => generated_map b _ _) ?_
  reader

theorem faithful_HIKIM2 : Faithful ⟨c!"HIKIM", 2, bankAnnouncementFile, c!"BankAnnouncementSegment", asAnnouncement⟩
    fun b => (unmarshalAnnouncement b).map' .announcement := by
  refine faithful
    [(c!"Subject", .text),
     (c!"Body", .text)]
    (by decide +kernel) (by decide +kernel) _ (fun b => generated_map b _ _) ?_
  reader

theorem faithful_HIKAZ5 : Faithful ⟨c!"HIKAZ", 5, accountTransactionFile, c!"AccountTransactionResponseSegmentV5", asStatement⟩
    fun b => (unmarshalStatement b).map' .statement := by
  refine faithful
    [(c!"BookedTransactions", .binary),
     (c!"UnbookedTransactions", .binary)]
    (by decide +kernel) (by decide +kernel) _ (fun b => generated_map b _ _) ?_
  reader

theorem faithful_HIKAZ6 : Faithful ⟨c!"HIKAZ", 6, accountTransactionFile, c!"AccountTransactionResponseSegmentV6", asStatement⟩
    fun b => (unmarshalStatement b).map' .statement := by
  refine faithful
    [(c!"BookedTransactions", .binary),
     (c!"UnbookedTransactions", .binary)]
    (by decide +kernel) (by decide +kernel) _ (fun b => generated_map b _ _) ?_
  reader

theorem faithful_HIKAZ7 : Faithful ⟨c!"HIKAZ", 7, accountTransactionFile, c!"AccountTransactionResponseSegmentV7", asStatement⟩
    fun b => (unmarshalStatement b).map' .statement := by
  refine faithful
    [(c!"BookedTransactions", .binary),
     (c!"UnbookedTransactions", .binary)]
    (by decide +kernel) (by decide +kernel) _ (fun b => generated_map b _ _) ?_
  reader

theorem faithful_HISAL5 : Faithful ⟨c!"HISAL", 5, accountBalanceFile, c!"AccountBalanceResponseSegmentV5", asBalance⟩
    fun b => (unmarshalBalanceSeg unmarshalAccountConnection b).map' .balance := by
  refine faithful
    [(c!"AccountConnection", .account),
     (c!"AccountProductName", .text),
     (c!"AccountCurrency", .text),
     (c!"BookedBalance", .balance),
     (c!"EarmarkedBalance", .balance),
     (c!"CreditLimit", .amount),
     (c!"AvailableAmount", .amount),
     (c!"UsedAmount", .amount),
     (c!"BookingDate", .date),
     (c!"BookingTime", .time),
     (c!"DueDate", .date)]
    (by decide +kernel) (by decide +kernel) _ (fun b => generated_map b _ _) ?_
  reader

theorem faithful_HISAL6 : Faithful ⟨c!"HISAL", 6, accountBalanceFile, c!"AccountBalanceResponseSegmentV6", asBalance⟩
    fun b => (unmarshalBalanceSeg unmarshalAccountConnection b).map' .balance := by
  refine faithful
    [(c!"AccountConnection", .account),
     (c!"AccountProductName", .text),
     (c!"AccountCurrency", .text),
     (c!"BookedBalance", .balance),
     (c!"EarmarkedBalance", .balance),
     (c!"CreditLimit", .amount),
     (c!"AvailableAmount", .amount),
     (c!"UsedAmount", .amount),
     (c!"BookingDate", .date),
     (c!"BookingTime", .time),
     (c!"DueDate", .date)]
    (by decide +kernel) (by decide +kernel) _ (fun b => generated_map b _ _) ?_
  reader

theorem faithful_HISAL7 : Faithful ⟨c!"HISAL", 7, accountBalanceFile, c!"AccountBalanceResponseSegmentV7", asInternationalBalance⟩
    fun b => (unmarshalBalanceSeg readInternational b).map' .internationalBalance := by
  refine faithful
    [(c!"AccountConnection", .international),
     (c!"AccountProductName", .text),
     (c!"AccountCurrency", .text),
     (c!"BookedBalance", .balance),
     (c!"EarmarkedBalance", .balance),
     (c!"CreditLimit", .amount),
     (c!"AvailableAmount", .amount),
     (c!"UsedAmount", .amount),
     (c!"BookingDate", .date),
     (c!"BookingTime", .time),
     (c!"DueDate", .date)]
    (by decide +kernel) (by decide +kernel) _ (fun b => generated_map b _ _) ?_
  reader

theorem faithful_HISAL8 : Faithful ⟨c!"HISAL", 8, accountBalanceFile, c!"AccountBalanceResponseSegmentV8", asInternationalBalance⟩
    fun b => (unmarshalBalanceSegV8 b).map' .internationalBalance := by
  refine faithful
    [(c!"AccountConnection", .international),
     (c!"AccountProductName", .text),
     (c!"AccountCurrency", .text),
     (c!"BookedBalance", .balance),
     (c!"EarmarkedBalance", .balance),
     (c!"CreditLimit", .amount),
     (c!"AvailableAmount", .amount),
     (c!"UsedAmount", .amount),
     (c!"BookingDate", .date),
     (c!"BookingTime", .time),
     (c!"DueDate", .date),
     (c!"SeizableAfterMonth", .amount)]
    (by decide +kernel) (by decide +kernel) _ (fun b => generated_map b _ _) ?_
  reader

theorem faithful_HIPRO3 : Faithful ⟨c!"HIPRO", 3, statusProtocolFile, c!"StatusProtocolResponseSegmentV3", asStatus⟩
    fun b => (unmarshalStatus b).map' .status := by
  refine faithful
    [(c!"ReferencingMessage", .reference),
     (c!"ReferencingSegment", .number),
     (c!"Date", .date),
     (c!"Time", .time),
     (c!"Acknowledgement", .acknowledgement)]
    (by decide +kernel) (by decide +kernel) _ (fun b => generated_map b _ _) ?_
  reader

theorem faithful_HIPRO4 : Faithful ⟨c!"HIPRO", 4, statusProtocolFile, c!"StatusProtocolResponseSegmentV4", asStatus⟩
    fun b => (unmarshalStatus b).map' .status := by
  refine faithful
    [(c!"ReferencingMessage", .reference),
     (c!"ReferencingSegment", .number),
     (c!"Date", .date),
     (c!"Time", .time),
     (c!"Acknowledgement", .acknowledgement)]
    (by decide +kernel) (by decide +kernel) _ (fun b => generated_map b _ _) ?_
  reader

theorem faithful_HIKIF1 : Faithful ⟨c!"HIKIF", 1, accountInformationFile, c!"AccountInformationResponseSegment", asUnread⟩
    fun b => (unmarshalAccountInformation b).map' .unread := by
  refine faithful
    [(c!"AccountConnection", .account),
     (c!"AccountKind", .number),
     (c!"Name1", .text),
     (c!"Name2", .text),
     (c!"AccountProductID", .text),
     (c!"AccountCurrency", .text),
     (c!"OpeningDate", .date),
     (c!"DebitInterest", .value),
     (c!"CreditInterest", .value),
     (c!"OverDebitInterest", .value),
     (c!"CreditLimit", .amount),
     (c!"ReferenceAccount", .account),
     (c!"AccountStatementShippingType", .number),
     (c!"AccountStatementShippingRotation", .number),
     (c!"AdditionalInformation", .text),
     (c!"DisposalEligiblePersons", .nil)]
    (by decide +kernel) (by decide +kernel) _ (fun b => generated_map b _ _) ?_
  reader

theorem faithful_HIKOM3 : Faithful ⟨c!"HIKOM", 3, communicationAccessFile, c!"CommunicationAccessResponseSegment", asUnread⟩
    fun b => (unmarshalCommunication b).map' .unread := by
  refine faithful
    [(c!"BankID", .bankId),
     (c!"StandardLanguage", .number),
     (c!"CommunicationParams", .nil)]
    (by decide +kernel) (by decide +kernel) _ (fun b => generated_map b _ _) ?_
  reader

theorem faithful_HIKPV1 : Faithful ⟨c!"HIKPV", 1, supportedCompressionMethodFile, c!"CompressionMethodSegment", asUnread⟩
    fun b => (unmarshalCompression b).map' .unread := by
  refine faithful
    [(c!"SupportedCompressionMethods", .nil)]
    (by decide +kernel) (by decide +kernel) _ (fun b => generated_map b _ _) ?_
  reader

theorem faithful_HISHV2 : Faithful ⟨c!"HISHV", 2, supportedSecurityMethodFile, c!"SecurityMethodSegment", asUnread⟩
    fun b => (unmarshalSecurityMethod b).map' .unread := by
  refine faithful
    [(c!"MixAllowed", .bool),
     (c!"SupportedMethods", .securityMethod)]
    (by decide +kernel) (by decide +kernel) _ (fun b => generated_map b _ _) ?_
  reader

end Verif.Generator

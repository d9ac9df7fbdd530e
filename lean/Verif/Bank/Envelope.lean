import Verif.Bank.Answer
import Verif.Bank.StatementProps
import Verif.Transport.Props
import Verif.Dialog.BankDataProps

/-
C95: the envelope of an answer, and what a dialog makes of it.  The theorems are in
`Verif.Bank.AnswerProps`.
-/

namespace Verif.Bank

open GoLib Element Element.Spec Segment Segment.Spec Message Message.Spec Dialog Domain Transport

/-! ## Specification -/

/-- What surrounds the encrypted segments of an answer. -/
structure Envelope where
  size : Int
  version : Int
  dialogId : Str
  number : Int
  refDialog : Str
  refNumber : Int
  securityPosition : Int
  securityVersion : Int
  security : List Bytes
  dataPosition : Int
  endPosition : Int

/-- The fields of HNHBK. -/
def Envelope.fields (e : Envelope) : List Bytes :=
  [zeroPad 12 e.size, itoa e.version, enc (escape e.dialogId), itoa e.number,
    join 58 [enc (escape e.refDialog), itoa e.refNumber]]

/-- HNHBK, HNVSK, HNVSD with the given data, HNHBS. -/
def Envelope.segments (e : Envelope) (data : Bytes) : List Bytes :=
  [writtenSegment c!"HNHBK" 1 3 none e.fields,
   writtenSegment c!"HNVSK" e.securityPosition e.securityVersion none e.security,
   writtenSegment c!"HNVSD" e.dataPosition 1 none [binaryOf data],
   writtenSegment c!"HNHBS" e.endPosition 1 none [itoa e.number]]

/-- The bytes of an answer. -/
def Envelope.bytes (e : Envelope) (ps : List Placed) : Bytes := (e.segments (ps.map Placed.bytes).flatten).flatten

/-- The numbers are numbers, the texts survive the wire, the version is one of those supported.  The
fields of HNVSK may be anything that can stand in a segment: they are not read. -/
structure Envelope.Good (e : Envelope) : Prop where
  numbers : ∀ n ∈ [e.size, e.version, e.number, e.refNumber, e.securityPosition, e.securityVersion, e.dataPosition, e.endPosition],
    IsInt n
  version : e.version = 220 ∨ e.version = 300
  dialogId : Sendable e.dialogId ∧ e.dialogId ≠ []
  refDialog : Sendable e.refDialog ∧ NoSep e.refDialog
  security : (∀ f ∈ e.security, Field f) ∧ e.security.getLast? ≠ some []
  short : e.dialogId.length ≤ 2 ^ 50 ∧ e.refDialog.length ≤ 2 ^ 50 ∧ (e.security.flatMap fun f => 43 :: f).length ≤ 2 ^ 50

/-- The header as the client reads it. -/
def Envelope.header (e : Envelope) : ReadHeader :=
  ⟨⟨c!"HNHBK", 1, 3, none⟩, some e.size, some e.version, some e.dialogId, some e.number, some (escape e.refDialog, e.refNumber)⟩

/-! ## Reading the envelope -/

theorem escape_length (s : Str) : (enc (escape s)).length ≤ 2 * s.length := by
  have : (escape s).length ≤ 2 * s.length := by
    induction s with
    | nil => simp [escape]
    | cons c s ih =>
      rw [escape_cons]
      split <;> simp <;> omega
  simpa [enc] using this

theorem escape_ne_nil {s : Str} (h : s ≠ []) : enc (escape s) ≠ [] := by
  cases s with
  | nil => exact absurd rfl h
  | cons c s =>
    rw [escape_cons]
    split <;> simp [enc]

theorem zeroPad_short {n : Int} (h : IsInt n) : (zeroPad 12 n).length ≤ 32 := by
  obtain ⟨ha, hb⟩ : -(2 ^ 63) ≤ n ∧ n < 2 ^ 63 := h
  have h1 : (natDec n.natAbs).length ≤ 19 := natDec_length_le (k := 19) (by omega) (by omega)
  unfold zeroPad
  split
  · simp only [List.length_cons, List.length_append, List.length_replicate]; omega
  · have : (natDec n.toNat).length ≤ 19 := natDec_length_le (k := 19) (by omega) (by omega)
    simp only [List.length_append, List.length_replicate]; omega

theorem reference_clean {e : Envelope} (h : e.Good) : ∀ q ∈ [enc (escape e.refDialog), itoa e.refNumber], CleanPart q := by
  intro q hq
  simp only [List.mem_cons, List.not_mem_nil, or_false] at hq
  rcases hq with rfl | rfl
  · exact clean_text h.refDialog.1 h.refDialog.2
  · exact clean_number _

theorem written_length {id : Str} {p v : Int} {fs : List Bytes} (hp : IsInt p) (hv : IsInt v) :
    (writtenSegment id p v none fs).length ≤ id.length + 43 + (fs.flatMap fun f => 43 :: f).length := by
  have h1 := itoa_length_le hp
  have h2 := itoa_length_le hv
  have : (enc id).length = id.length := by simp [enc]
  simp only [writtenSegment, List.length_append, List.length_cons, List.length_nil]
  omega

theorem Envelope.Good.wires {e : Envelope} (h : e.Good) {data : Bytes} (hd : data.length ≤ 2 ^ 48) :
    Wire e.header.header e.fields (writtenSegment c!"HNHBK" 1 3 none e.fields) ∧
    Wire ⟨c!"HNVSK", e.securityPosition, e.securityVersion, none⟩ e.security (writtenSegment c!"HNVSK" e.securityPosition e.securityVersion none e.security) ∧
    Wire ⟨c!"HNVSD", e.dataPosition, 1, none⟩ [binaryOf data] (writtenSegment c!"HNVSD" e.dataPosition 1 none [binaryOf data]) ∧
    Wire ⟨c!"HNHBS", e.endPosition, 1, none⟩ [itoa e.number] (writtenSegment c!"HNHBS" e.endPosition 1 none [itoa e.number]) := by
  have hn : ∀ n ∈ [e.size, e.version, e.number, e.refNumber, e.securityPosition, e.securityVersion, e.dataPosition, e.endPosition],
    IsInt n := h.numbers
  have h1 : IsInt 1 := by unfold IsInt; decide
  have h3 : IsInt 3 := by unfold IsInt; decide
  have l1 := escape_length e.dialogId
  have l2 := escape_length e.refDialog
  obtain ⟨s1, s2, s3⟩ := h.short
  have z1 := zeroPad_short (hn e.size (by simp))
  have i1 := itoa_length_le (hn e.version (by simp))
  have i2 := itoa_length_le (hn e.number (by simp))
  have i3 := itoa_length_le (hn e.refNumber (by simp))
  have hb := binary_length hd
  refine ⟨?_, ?_, ?_, ?_⟩
  · refine wire_written (by decide) h1 h3 (by simp) (by decide) ?_ ?_ ?_
    · intro f hf
      simp only [Envelope.fields, List.mem_cons, List.not_mem_nil, or_false] at hf
      rcases hf with rfl | rfl | rfl | rfl | rfl
      · exact field_of_part (clean_zeroPad 12 _).1
      · exact field_of_part (clean_number _).1
      · exact field_of_part (part_of_sendable h.dialogId.1)
      · exact field_of_part (clean_number _).1
      · exact field_group (reference_clean h)
    · simp [Envelope.fields, join]
    · simp only [Envelope.fields, List.flatMap_cons, List.flatMap_nil, List.length_append, List.length_cons, List.length_nil, join]
      omega
  · exact wire_written (by decide) (hn _ (by simp)) (hn _ (by simp)) (by simp) (by decide) h.security.1 h.security.2 (by omega)
  · refine wire_written (by decide) (hn _ (by simp)) h1 (by simp) (by decide) ?_ ?_ ?_
    · intro f hf
      rw [List.mem_singleton.1 hf, binary_eq]
      exact .one (marshalBinary_value _)
    · simp [binaryOf]
    · simp only [List.flatMap_cons, List.flatMap_nil, List.length_append, List.length_cons, List.length_nil]
      omega
  · refine wire_written (by decide) (hn _ (by simp)) h1 (by simp) (by decide) ?_ ?_ ?_
    · intro f hf
      rw [List.mem_singleton.1 hf]
      exact field_of_part (clean_number _).1
    · simpa using itoa_ne_nil e.number
    · simp only [List.flatMap_cons, List.flatMap_nil, List.length_append, List.length_cons, List.length_nil]
      omega

theorem Envelope.Good.total {e : Envelope} (h : e.Good) {data : Bytes} (hd : data.length ≤ 2 ^ 48) :
    (e.segments data).flatten.length < 2 ^ 63 := by
  have hn : ∀ n ∈ [e.size, e.version, e.number, e.refNumber, e.securityPosition, e.securityVersion, e.dataPosition, e.endPosition],
    IsInt n := h.numbers
  have h1 : IsInt 1 := by unfold IsInt; decide
  have h3 : IsInt 3 := by unfold IsInt; decide
  have l1 := escape_length e.dialogId
  have l2 := escape_length e.refDialog
  obtain ⟨s1, s2, s3⟩ := h.short
  have z1 := zeroPad_short (hn e.size (by simp))
  have i1 := itoa_length_le (hn e.version (by simp))
  have i2 := itoa_length_le (hn e.number (by simp))
  have i3 := itoa_length_le (hn e.refNumber (by simp))
  have hb := binary_length hd
  have w1 := written_length (id := c!"HNHBK") (fs := e.fields) h1 h3
  have hf : (e.fields.flatMap fun f => 43 :: f).length ≤ 2 ^ 53 := by
    simp only [Envelope.fields, List.flatMap_cons, List.flatMap_nil, List.length_append, List.length_cons, List.length_nil, join]
    omega
  have w2 := written_length (id := c!"HNVSK") (fs := e.security) (hn e.securityPosition (by simp)) (hn e.securityVersion (by simp))
  have w3 := written_length (id := c!"HNVSD") (fs := [binaryOf data]) (hn e.dataPosition (by simp)) h1
  have w4 := written_length (id := c!"HNHBS") (fs := [itoa e.number]) (hn e.endPosition (by simp)) h1
  simp only [Envelope.segments, List.flatten_cons, List.flatten_nil, List.length_append, List.length_nil]
  simp only [List.flatMap_cons, List.flatMap_nil, List.length_append, List.length_cons, List.length_nil] at w3 w4
  simp only [List.length_cons, List.length_nil] at w1 w2
  omega

theorem header_read {e : Envelope} (h : e.Good) :
    unmarshalMsgHeader (writtenSegment c!"HNHBK" 1 3 none e.fields) = .ok e.header := by
  have hn : ∀ n ∈ [e.size, e.version, e.number, e.refNumber, e.securityPosition, e.securityVersion, e.dataPosition, e.endPosition],
    IsInt n := h.numbers
  obtain ⟨hb, h1, h2, h3⟩ := generated_wire (h.wires (data := []) (by simp)).1
  have hj := h1 (join 58 [enc (escape e.refDialog), itoa e.refNumber]) (by simp [Envelope.fields])
  have hr : unmarshalReference (join 58 [enc (escape e.refDialog), itoa e.refNumber]) = .ok (escape e.refDialog, e.refNumber) := by
    have hi := hn e.refNumber (by simp)
    unfold unmarshalReference
    rw [extract_join (by simp) (reference_clean h) hj]
    dsimp only
    rw [atoi_itoa _ hi.1 hi.2]
    simp only [Outcome.ofOption, Outcome.map']
    rw [toUTF8_enc (escape_latin1.2 h.refDialog.1.1)]
  unfold unmarshalMsgHeader
  rw [h2]
  simp only [Outcome.bind, h3]
  rw [field_at (p := zeroPad 12 e.size) (a := e.size) rfl (Token.value_ne_nil (zeroPad_value 12 _))
      (C09_digit_roundtrip e.size 12 (hn _ (by simp))),
    field_at (p := itoa e.version) (a := e.version) rfl (itoa_ne_nil _) (C09_number e.version (hn _ (by simp))),
    field_at (p := enc (escape e.dialogId)) (a := e.dialogId) rfl (escape_ne_nil h.dialogId.2)
      (by rw [unmarshalText_enc h.dialogId.1.1]),
    field_at (p := itoa e.number) (a := e.number) rfl (itoa_ne_nil _) (C09_number e.number (hn _ (by simp))),
    lastField_at (p := join 58 [enc (escape e.refDialog), itoa e.refNumber]) (a := (escape e.refDialog, e.refNumber)) rfl
      (by simp [join]) hr]
  rfl

theorem data_read {e : Envelope} (h : e.Good) {data : Bytes} (hd : data.length ≤ 2 ^ 48) :
    unmarshalEncryptedData (writtenSegment c!"HNVSD" e.dataPosition 1 none [binaryOf data]) =
      .ok (⟨c!"HNVSD", e.dataPosition, 1, none⟩, some data) := by
  obtain ⟨hb, h1, h2, h3⟩ := generated_wire (h.wires hd).2.2.1
  unfold unmarshalEncryptedData
  rw [h2]
  simp only [Outcome.bind, h3]
  rw [lastField_at (p := binaryOf data) (a := data) rfl (by simp [binaryOf]) (by
    show unmarshalBinary (binaryOf data) = _
    rw [binary_eq]
    exact C07_roundtrip data hd)]

/-! ## Specification: what the dialog makes of it -/

/-- The first segment that says something of a kind. -/
def firstSaid {β : Type} (f : Item → Option β) (ps : List Placed) : Option β := ps.findSome? fun p => f p.item

/-- All that is said of a kind, in order. -/
def allSaid {β : Type} (f : Item → Option β) (ps : List Placed) : List β := ps.filterMap fun p => f p.item

/-- The bank does not refuse: no acknowledgement is an error, and if security functions are
announced (code 3920) and TAN procedures described, some function is both. -/
structure Welcoming (e : Envelope) (ps : List Placed) : Prop where
  accepted : ∀ a ∈ acknowledged e.header.referencingMessage ps, a.code < 9000
  function : ∀ a, (acknowledged e.header.referencingMessage ps).find? (fun a => a.code == 3920) = some a →
    ∀ fs, firstSaid Item.procedures ps = some fs → ∃ f ∈ a.params, ∃ x ∈ fs, x.1 = f

/-- What a dialog knows after an answer: parameters that were sent replace those known. -/
def knowing (k : Knowledge) (ps : List Placed) : Knowledge :=
  { k with
    bank := (firstSaid Item.bankParameters ps).getD k.bank
    user := (firstSaid Item.userParameters ps).getD k.user
    clientId := ((firstSaid Item.userParameters ps).map (·.userId)).getD k.clientId }

/-! ## Lemmas -/

theorem head_said {β : Type} {f : Item → Option β} {ps : List Placed} {ds : List (Decoded BankSeg)}
    {view : Decoded BankSeg → Outcome β} (h : ds.map view = (ps.filterMap (fun p => f p.item)).map .ok) :
    ds.head?.map view = (firstSaid f ps).map .ok := by
  have := congrArg List.head? h
  rw [List.head?_map, List.head?_map, List.head?_filterMap] at this
  exact this

/-- The first segment of an ID and what is said by it. -/
theorem find_said {β : Type} {f : Item → Option β} {ps : List Placed} {m : Decrypted BankSeg} {id : Str}
    {view : Decoded BankSeg → Outcome β} (h : (m.segments id).map view = (ps.filterMap (fun p => f p.item)).map .ok) :
    (find m id = none ∧ firstSaid f ps = none) ∨ ∃ x b, find m id = some x ∧ view x = .ok b ∧ firstSaid f ps = some b := by
  have := head_said h
  unfold find
  cases hx : (m.segments id).head? with
  | none =>
    left
    rw [hx] at this
    cases hf : firstSaid f ps with
    | none => exact ⟨rfl, rfl⟩
    | some b => rw [hf] at this; simp at this
  | some x =>
    right
    rw [hx] at this
    cases hf : firstSaid f ps with
    | none => rw [hf] at this; simp at this
    | some b =>
      rw [hf] at this
      exact ⟨x, b, rfl, by simpa using this, rfl⟩

theorem commonFunctions_ok {av : List (Str × Option Str)} (h : ∀ x ∈ av, x.2 ≠ none) :
    ∀ ps : List Str, ∃ fs, commonFunctions av ps = .ok fs ∧ ((∃ f ∈ ps, ∃ x ∈ av, x.1 = f) → fs ≠ []) := by
  intro ps
  induction ps with
  | nil => exact ⟨[], rfl, by simp⟩
  | cons p ps ih =>
    obtain ⟨fs, h1, h2⟩ := ih
    unfold commonFunctions processName
    cases hf : av.reverse.find? (fun x => x.1 == p) with
    | none =>
      refine ⟨fs, by simpa using h1, ?_⟩
      rintro ⟨f, hf', x, hx, rfl⟩
      rcases List.mem_cons.1 hf' with rfl | hf'
      · have := List.find?_eq_none.1 hf x (List.mem_reverse.2 hx)
        simp at this
      · exact h2 ⟨_, hf', x, hx, rfl⟩
    | some x =>
      have hm := List.mem_reverse.1 (List.mem_of_find?_eq_some hf)
      have := h x hm
      cases hx : x.2 with
      | none => exact absurd hx this
      | some n =>
        refine ⟨p :: fs, ?_, by simp⟩
        simp [hx, h1, Outcome.map']

theorem procedures_named {ps : List Placed} {fs : List (Str × Option Str)} (h : firstSaid Item.procedures ps = some fs) :
    ∀ x ∈ fs, x.2 ≠ none := by
  obtain ⟨p, _, hp⟩ := List.exists_of_findSome?_eq_some h
  unfold Item.procedures at hp
  split at hp
  · simp only [Option.some.injEq] at hp
    subst hp
    intro x hx
    obtain ⟨q, _, rfl⟩ := List.mem_map.1 hx
    simp
  · cases hp

variable {w : World BankSeg AccountInformation}

theorem assigned_of_sees (hv : w.views = views) {e : Envelope} {ps : List Placed} {m : Decrypted BankSeg} (hs : Sees e.header ps m)
    (hw : Welcoming e ps) {id : Str} (hid : firstSaid Item.systemId ps = some id) : Assigns w m id := by
  refine ⟨?_, ?_, ?_, ?_⟩
  · rw [hs.received]; simp [Envelope.header]
  · rw [hs.acknowledgements]; exact hw.accepted
  · intro h1 h2
    unfold supportedFunctions
    cases ha : securityAck m with
    | none => exact absurd ha h2
    | some a =>
      unfold securityAck at ha
      rw [hs.acknowledgements] at ha
      rcases find_said hs.procedures with ⟨h3, _⟩ | ⟨x, fs, h3, h4, h5⟩
      · exact absurd h3 h1
      · obtain ⟨f, hf, y, hy, hxy⟩ := hw.function a ha fs h5
        obtain ⟨gs, h6, h7⟩ := commonFunctions_ok (procedures_named h5) a.params
        dsimp only
        rw [if_neg (List.ne_nil_of_mem hf), h3]
        dsimp only
        rw [hv, h4]
        cases gs with
        | nil => exact absurd rfl (h7 ⟨f, hf, y, hy, hxy⟩)
        | cons g gs => exact ⟨g, gs, h6⟩
  · rcases find_said hs.systemId with ⟨_, h⟩ | ⟨x, b, h1, h2, h3⟩
    · rw [h] at hid; cases hid
    · rw [h3] at hid
      cases hid
      exact ⟨x, h1, by rw [hv]; exact h2⟩

theorem readable_of_sees (hv : w.views = views) {e : Envelope} {ps : List Placed} {m : Decrypted BankSeg} (hs : Sees e.header ps m) :
    bankReadable w m = .ok () ∧ userReadable w m = .ok () ∧ bankIn w m = firstSaid Item.bankParameters ps ∧
    userIn w m = firstSaid Item.userParameters ps ∧ accountsIn w m = allSaid Item.accountInformation ps := by
  have hb : bankReadable w m = .ok () := by
    unfold bankReadable
    rcases find_said hs.bank with ⟨h1, _⟩ | ⟨x, b, h1, h2, _⟩ <;> rw [h1]
    rw [hs.supported, hv]
    simp only [Outcome.bind, h2]
    rcases find_said hs.transactions with ⟨h3, _⟩ | ⟨x', b', h3, h4, _⟩ <;> rw [h3]
    simp [h4, Outcome.map']
  have hu : userReadable w m = .ok () := by
    unfold userReadable
    rcases find_said hs.user with ⟨h1, _⟩ | ⟨x, b, h1, h2, _⟩ <;> rw [h1]
    simp [hv, h2, Outcome.map']
  refine ⟨hb, hu, ?_, ?_, ?_⟩
  · unfold bankIn
    rcases find_said hs.bank with ⟨h1, h3⟩ | ⟨x, b, h1, h2, h3⟩ <;> rw [h1, h3]
    rw [hs.supported, hv]
    simp [h2]
  · unfold userIn
    rcases find_said hs.user with ⟨h1, h3⟩ | ⟨x, b, h1, h2, h3⟩ <;> rw [h1, h3]
    rw [hb, hv]
    simp [h2]
  · unfold accountsIn
    rw [hb, hu]
    change accountPrefix w _ = _
    have := hs.accounts
    unfold allSaid
    generalize m.segments c!"HIUPD" = ds at this ⊢
    generalize ps.filterMap (fun p => p.item.accountInformation) = l at this ⊢
    induction ds generalizing l with
    | nil =>
      cases l with
      | nil => rfl
      | cons a l => simp at this
    | cons d ds ih =>
      cases l with
      | nil => simp at this
      | cons a l =>
        simp only [List.map_cons, List.cons.injEq] at this
        unfold accountPrefix
        rw [hv, this.1]
        simp only
        rw [ih l this.2]

end Verif.Bank

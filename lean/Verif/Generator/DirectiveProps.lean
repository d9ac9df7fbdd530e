import Verif.Generator.Directives
import Verif.Generator.FlagProps
import Verif.Generator.ReaderProps

/-
C133: running `go generate` gives the readers of segments with several versions that are checked in.
-/

namespace Verif.Generator

open GoLib Element Segment Message Bank

/-- The text of a name in the flag. -/
def nameText (b : Bytes) : Str := b.map fun x => Char.ofNat x.toNat

/-- The segment that the fields of a receiver make, by ID and the version in its header. -/
def made (id : Str) (r : Receiver) : BankSeg :=
  match sources.find? fun s => s.id == id && s.version == r.1.version with
  | some s => s.seg r
  | none => .unread r.1

/-- The generated code keeps the header. -/
theorem generated_header {fs : List Fld} {b : Bytes} {hb : Bytes} {es : List Bytes} {h : Header}
    (he : Segment.extractElements b = .ok (hb :: es)) (hh : unmarshalHeader hb = .ok h) {seg seg' : Receiver → BankSeg}
    (hs : ∀ r : Receiver, r.1 = h → seg r = seg' r) :
    (generatedCode readElement fs b).map' seg = (generatedCode readElement fs b).map' seg' := by
  unfold generatedCode generated
  rw [he, bind_value]
  simp only
  rw [hh, bind_value]
  cases readFields readElement (hb :: es) fs.length 0 fs fun _ => none with
  | ok st => exact congrArg Outcome.ok (hs (h, st) rfl)
  | err => rfl
  | panic => rfl

/-- A reader by versions does what the generated one does, if each version does. -/
theorem byVersion_generated {id : Str} {cs : List (Int × (Bytes → Outcome BankSeg))} {gs : List (Int × List Fld)}
    (h : List.Forall₂ (fun c g => c.1 = g.1 ∧ ∀ b hb es hd, Segment.extractElements b = .ok (hb :: es) →
      unmarshalHeader hb = .ok hd → hd.version = c.1 → c.2 b = (generatedCode readElement g.2 b).map' (made id)) cs gs)
    (b : Bytes) : byVersion cs b = (versionedCode readElement gs b).map' (made id) := by
  unfold byVersion versionedCode
  cases he : Segment.extractElements b with
  | err => rfl
  | panic => rfl
  | ok es =>
    rw [bind_value, bind_value]
    cases es with
    | nil => rfl
    | cons hb es =>
      simp only
      cases hh : unmarshalHeader hb with
      | err => rfl
      | panic => rfl
      | ok hd =>
        rw [bind_value, bind_value]
        induction h with
        | nil => rfl
        | @cons c g cs gs hcg _ ih =>
          obtain ⟨h1, h2⟩ := hcg
          by_cases hv : c.1 = hd.version
          · have e1 : (c.1 == hd.version) = true := by simp [hv]
            have e2 : (g.1 == hd.version) = true := by simp [← h1, hv]
            simp only [List.find?_cons, e1, e2]
            exact h2 b hb es hd he hh hv.symm
          · have e1 : (c.1 == hd.version) = false := by simp [hv]
            have e2 : (g.1 == hd.version) = false := by simp [← h1, hv]
            simp only [List.find?_cons, e1, e2]
            exact ih

theorem case_of {s : Source} {read : Bytes → Outcome BankSeg} {fs : List Fld}
    (hm : ∀ r : Receiver, r.1.version = s.version → s.seg r = made s.id r)
    (hr : ∀ b, read b = (generatedCode readElement fs b).map' s.seg) :
    ∀ b hb es hd, Segment.extractElements b = .ok (hb :: es) → unmarshalHeader hb = .ok hd → hd.version = s.version →
      read b = (generatedCode readElement fs b).map' (made s.id) := by
  intro b hb es hd he hh hv
  rw [hr b]
  exact generated_header he hh fun r h => hm r (by rw [h, hv])

/-- What it means that the checked-in reader is the generated one. -/
def Regenerated (sort : List Fld → List Fld) (rest : Bytes → Option Bytes) (w : Versioned) : Prop :=
  ∃ ids cases, setVersions rest [] w.flag = (ids, false) ∧
    versionFields sort w.file (ids.map fun i => (i.version, nameText i.name)) = .ok cases ∧
    ∀ b, w.read b = (versionedCode readElement cases b).map' (made w.id)

theorem flag_value (rest : Bytes → Option Bytes) {u : Bytes} {ids : List SegmentId} (hp : PlainText u)
    (hr : readVersions [] (fieldsComma u) = (ids, false)) : setVersions rest [] (b!"\"" ++ u ++ b!"\"") = (ids, false) := by
  unfold setVersions
  rw [unquote_plain rest hp]
  exact hr

theorem regenerated_HISAL {sort : List Fld → List Fld} (hs : SortsByLine sort) (rest : Bytes → Option Bytes) :
    Regenerated sort rest versionedHISAL := by
  obtain ⟨f5, e5, r5⟩ := faithful_HISAL5 sort hs
  obtain ⟨f6, e6, r6⟩ := faithful_HISAL6 sort hs
  obtain ⟨f7, e7, r7⟩ := faithful_HISAL7 sort hs
  obtain ⟨f8, e8, r8⟩ := faithful_HISAL8 sort hs
  refine ⟨[⟨b!"AccountBalanceResponseSegmentV5", 5, b!"Segment"⟩,
     ⟨b!"AccountBalanceResponseSegmentV6", 6, b!"Segment"⟩,
     ⟨b!"AccountBalanceResponseSegmentV7", 7, b!"Segment"⟩,
     ⟨b!"AccountBalanceResponseSegmentV8", 8, b!"Segment"⟩],
    [(5, f5), (6, f6), (7, f7), (8, f8)],
    flag_value rest (u := b!"AccountBalanceResponseSegmentV5:5:Segment,AccountBalanceResponseSegmentV6:6:Segment,AccountBalanceResponseSegmentV7:7:Segment,AccountBalanceResponseSegmentV8:8:Segment") (by unfold PlainText; decide +kernel) (by decide +kernel), ?_, ?_⟩
  · have n : ∀ b : Bytes, ∀ s : Str, nameText b = s → nameText b = s := fun _ _ h => h
    have n5 := n b!"AccountBalanceResponseSegmentV5" c!"AccountBalanceResponseSegmentV5" (by decide +kernel)
    have n6 := n b!"AccountBalanceResponseSegmentV6" c!"AccountBalanceResponseSegmentV6" (by decide +kernel)
    have n7 := n b!"AccountBalanceResponseSegmentV7" c!"AccountBalanceResponseSegmentV7" (by decide +kernel)
    have n8 := n b!"AccountBalanceResponseSegmentV8" c!"AccountBalanceResponseSegmentV8" (by decide +kernel)
    simp only [List.map_cons, List.map_nil, n5, n6, n7, n8, versionedHISAL, versionFields]
    simp only at e5
    simp only at e6
    simp only at e7
    simp only at e8
    simp only [e5, e6, e7, e8, Outcome.bind, Outcome.map']
  · refine byVersion_generated ?_
    refine .cons ⟨rfl, case_of (fun r h => by unfold made; rw [h]; rfl) r5⟩ ?_
    refine .cons ⟨rfl, case_of (fun r h => by unfold made; rw [h]; rfl) r6⟩ ?_
    refine .cons ⟨rfl, case_of (fun r h => by unfold made; rw [h]; rfl) r7⟩ ?_
    refine .cons ⟨rfl, case_of (fun r h => by unfold made; rw [h]; rfl) r8⟩ ?_
    exact .nil

theorem regenerated_HIKAZ {sort : List Fld → List Fld} (hs : SortsByLine sort) (rest : Bytes → Option Bytes) :
    Regenerated sort rest versionedHIKAZ := by
  obtain ⟨f5, e5, r5⟩ := faithful_HIKAZ5 sort hs
  obtain ⟨f6, e6, r6⟩ := faithful_HIKAZ6 sort hs
  obtain ⟨f7, e7, r7⟩ := faithful_HIKAZ7 sort hs
  refine ⟨[⟨b!"AccountTransactionResponseSegmentV5", 5, b!"Segment"⟩,
     ⟨b!"AccountTransactionResponseSegmentV6", 6, b!"Segment"⟩,
     ⟨b!"AccountTransactionResponseSegmentV7", 7, b!"Segment"⟩],
    [(5, f5), (6, f6), (7, f7)],
    flag_value rest (u := b!"AccountTransactionResponseSegmentV5:5:Segment,AccountTransactionResponseSegmentV6:6:Segment,AccountTransactionResponseSegmentV7:7:Segment") (by unfold PlainText; decide +kernel) (by decide +kernel), ?_, ?_⟩
  · have n : ∀ b : Bytes, ∀ s : Str, nameText b = s → nameText b = s := fun _ _ h => h
    have n5 := n b!"AccountTransactionResponseSegmentV5" c!"AccountTransactionResponseSegmentV5" (by decide +kernel)
    have n6 := n b!"AccountTransactionResponseSegmentV6" c!"AccountTransactionResponseSegmentV6" (by decide +kernel)
    have n7 := n b!"AccountTransactionResponseSegmentV7" c!"AccountTransactionResponseSegmentV7" (by decide +kernel)
    simp only [List.map_cons, List.map_nil, n5, n6, n7, versionedHIKAZ, versionFields]
    simp only at e5
    simp only at e6
    simp only at e7
    simp only [e5, e6, e7, Outcome.bind, Outcome.map']
  · refine byVersion_generated ?_
    refine .cons ⟨rfl, case_of (fun r h => by unfold made; rw [h]; rfl) r5⟩ ?_
    refine .cons ⟨rfl, case_of (fun r h => by unfold made; rw [h]; rfl) r6⟩ ?_
    refine .cons ⟨rfl, case_of (fun r h => by unfold made; rw [h]; rfl) r7⟩ ?_
    exact .nil

theorem regenerated_HIUPD {sort : List Fld → List Fld} (hs : SortsByLine sort) (rest : Bytes → Option Bytes) :
    Regenerated sort rest versionedHIUPD := by
  obtain ⟨f4, e4, r4⟩ := faithful_HIUPD4 sort hs
  obtain ⟨f5, e5, r5⟩ := faithful_HIUPD5 sort hs
  obtain ⟨f6, e6, r6⟩ := faithful_HIUPD6 sort hs
  obtain ⟨f7, e7, r7⟩ := faithful_HIUPD7 sort hs
  refine ⟨[⟨b!"AccountInformationV4", 4, b!"Segment"⟩,
     ⟨b!"AccountInformationV5", 5, b!"Segment"⟩,
     ⟨b!"AccountInformationV6", 6, b!"Segment"⟩,
     ⟨b!"AccountInformationV7", 7, b!"Segment"⟩],
    [(4, f4), (5, f5), (6, f6), (7, f7)],
    flag_value rest (u := b!"AccountInformationV4:4:Segment,AccountInformationV5:5:Segment,AccountInformationV6:6:Segment,AccountInformationV7:7:Segment") (by unfold PlainText; decide +kernel) (by decide +kernel), ?_, ?_⟩
  · have n : ∀ b : Bytes, ∀ s : Str, nameText b = s → nameText b = s := fun _ _ h => h
    have n4 := n b!"AccountInformationV4" c!"AccountInformationV4" (by decide +kernel)
    have n5 := n b!"AccountInformationV5" c!"AccountInformationV5" (by decide +kernel)
    have n6 := n b!"AccountInformationV6" c!"AccountInformationV6" (by decide +kernel)
    have n7 := n b!"AccountInformationV7" c!"AccountInformationV7" (by decide +kernel)
    simp only [List.map_cons, List.map_nil, n4, n5, n6, n7, versionedHIUPD, versionFields]
    simp only at e4
    simp only at e5
    simp only at e6
    simp only at e7
    simp only [e4, e5, e6, e7, Outcome.bind, Outcome.map']
  · refine byVersion_generated ?_
    refine .cons ⟨rfl, case_of (fun r h => by unfold made; rw [h]; rfl) r4⟩ ?_
    refine .cons ⟨rfl, case_of (fun r h => by unfold made; rw [h]; rfl) r5⟩ ?_
    refine .cons ⟨rfl, case_of (fun r h => by unfold made; rw [h]; rfl) r6⟩ ?_
    refine .cons ⟨rfl, case_of (fun r h => by unfold made; rw [h]; rfl) r7⟩ ?_
    exact .nil

theorem regenerated_HIBPA {sort : List Fld → List Fld} (hs : SortsByLine sort) (rest : Bytes → Option Bytes) :
    Regenerated sort rest versionedHIBPA := by
  obtain ⟨f2, e2, r2⟩ := faithful_HIBPA2 sort hs
  obtain ⟨f3, e3, r3⟩ := faithful_HIBPA3 sort hs
  refine ⟨[⟨b!"CommonBankParameterV2", 2, b!"Segment"⟩,
     ⟨b!"CommonBankParameterV3", 3, b!"Segment"⟩],
    [(2, f2), (3, f3)],
    flag_value rest (u := b!"CommonBankParameterV2:2,CommonBankParameterV3:3") (by unfold PlainText; decide +kernel) (by decide +kernel), ?_, ?_⟩
  · have n : ∀ b : Bytes, ∀ s : Str, nameText b = s → nameText b = s := fun _ _ h => h
    have n2 := n b!"CommonBankParameterV2" c!"CommonBankParameterV2" (by decide +kernel)
    have n3 := n b!"CommonBankParameterV3" c!"CommonBankParameterV3" (by decide +kernel)
    simp only [List.map_cons, List.map_nil, n2, n3, versionedHIBPA, versionFields]
    simp only at e2
    simp only at e3
    simp only [e2, e3, Outcome.bind, Outcome.map']
  · refine byVersion_generated ?_
    refine .cons ⟨rfl, case_of (fun r h => by unfold made; rw [h]; rfl) r2⟩ ?_
    refine .cons ⟨rfl, case_of (fun r h => by unfold made; rw [h]; rfl) r3⟩ ?_
    exact .nil

theorem regenerated_HNVSK {sort : List Fld → List Fld} (hs : SortsByLine sort) (rest : Bytes → Option Bytes) :
    Regenerated sort rest versionedHNVSK := by
  obtain ⟨f2, e2, r2⟩ := faithful_HNVSK2 sort hs
  obtain ⟨f3, e3, r3⟩ := faithful_HNVSK3 sort hs
  refine ⟨[⟨b!"EncryptionHeaderV2", 2, b!"ClientSegment"⟩,
     ⟨b!"EncryptionHeaderSegmentV3", 3, b!"ClientSegment"⟩],
    [(2, f2), (3, f3)],
    flag_value rest (u := b!"EncryptionHeaderV2:2:ClientSegment,EncryptionHeaderSegmentV3:3:ClientSegment") (by unfold PlainText; decide +kernel) (by decide +kernel), ?_, ?_⟩
  · have n : ∀ b : Bytes, ∀ s : Str, nameText b = s → nameText b = s := fun _ _ h => h
    have n2 := n b!"EncryptionHeaderV2" c!"EncryptionHeaderV2" (by decide +kernel)
    have n3 := n b!"EncryptionHeaderSegmentV3" c!"EncryptionHeaderSegmentV3" (by decide +kernel)
    simp only [List.map_cons, List.map_nil, n2, n3, versionedHNVSK, versionFields]
    simp only at e2
    simp only at e3
    simp only [e2, e3, Outcome.bind, Outcome.map']
  · refine byVersion_generated ?_
    refine .cons ⟨rfl, case_of (fun r h => by unfold made; rw [h]; rfl) r2⟩ ?_
    refine .cons ⟨rfl, case_of (fun r h => by unfold made; rw [h]; rfl) r3⟩ ?_
    exact .nil

theorem regenerated_HIPINS {sort : List Fld → List Fld} (hs : SortsByLine sort) (rest : Bytes → Option Bytes) :
    Regenerated sort rest versionedHIPINS := by
  obtain ⟨f1, e1, r1⟩ := faithful_HIPINS1 sort hs
  refine ⟨[⟨b!"PinTanBankParameterV1", 1, b!"Segment"⟩],
    [(1, f1)],
    flag_value rest (u := b!"PinTanBankParameterV1:1:Segment") (by unfold PlainText; decide +kernel) (by decide +kernel), ?_, ?_⟩
  · have n : ∀ b : Bytes, ∀ s : Str, nameText b = s → nameText b = s := fun _ _ h => h
    have n1 := n b!"PinTanBankParameterV1" c!"PinTanBankParameterV1" (by decide +kernel)
    simp only [List.map_cons, List.map_nil, n1, versionedHIPINS, versionFields]
    simp only at e1
    simp only [e1, Outcome.bind, Outcome.map']
  · refine byVersion_generated ?_
    refine .cons ⟨rfl, case_of (fun r h => by unfold made; rw [h]; rfl) r1⟩ ?_
    exact .nil

theorem regenerated_HNSHA {sort : List Fld → List Fld} (hs : SortsByLine sort) (rest : Bytes → Option Bytes) :
    Regenerated sort rest versionedHNSHA := by
  obtain ⟨f1, e1, r1⟩ := faithful_HNSHA1 sort hs
  obtain ⟨f2, e2, r2⟩ := faithful_HNSHA2 sort hs
  refine ⟨[⟨b!"SignatureEndV1", 1, b!"ClientSegment"⟩,
     ⟨b!"SignatureEndV2", 2, b!"ClientSegment"⟩],
    [(1, f1), (2, f2)],
    flag_value rest (u := b!"SignatureEndV1:1:ClientSegment,SignatureEndV2:2:ClientSegment") (by unfold PlainText; decide +kernel) (by decide +kernel), ?_, ?_⟩
  · have n : ∀ b : Bytes, ∀ s : Str, nameText b = s → nameText b = s := fun _ _ h => h
    have n1 := n b!"SignatureEndV1" c!"SignatureEndV1" (by decide +kernel)
    have n2 := n b!"SignatureEndV2" c!"SignatureEndV2" (by decide +kernel)
    simp only [List.map_cons, List.map_nil, n1, n2, versionedHNSHA, versionFields]
    simp only at e1
    simp only at e2
    simp only [e1, e2, Outcome.bind, Outcome.map']
  · refine byVersion_generated ?_
    refine .cons ⟨rfl, case_of (fun r h => by unfold made; rw [h]; rfl) r1⟩ ?_
    refine .cons ⟨rfl, case_of (fun r h => by unfold made; rw [h]; rfl) r2⟩ ?_
    exact .nil

theorem regenerated_HNSHK {sort : List Fld → List Fld} (hs : SortsByLine sort) (rest : Bytes → Option Bytes) :
    Regenerated sort rest versionedHNSHK := by
  obtain ⟨f3, e3, r3⟩ := faithful_HNSHK3 sort hs
  obtain ⟨f4, e4, r4⟩ := faithful_HNSHK4 sort hs
  refine ⟨[⟨b!"SignatureHeaderV3", 3, b!"ClientSegment"⟩,
     ⟨b!"SignatureHeaderSegmentV4", 4, b!"ClientSegment"⟩],
    [(3, f3), (4, f4)],
    flag_value rest (u := b!"SignatureHeaderV3:3:ClientSegment,SignatureHeaderSegmentV4:4:ClientSegment") (by unfold PlainText; decide +kernel) (by decide +kernel), ?_, ?_⟩
  · have n : ∀ b : Bytes, ∀ s : Str, nameText b = s → nameText b = s := fun _ _ h => h
    have n3 := n b!"SignatureHeaderV3" c!"SignatureHeaderV3" (by decide +kernel)
    have n4 := n b!"SignatureHeaderSegmentV4" c!"SignatureHeaderSegmentV4" (by decide +kernel)
    simp only [List.map_cons, List.map_nil, n3, n4, versionedHNSHK, versionFields]
    simp only at e3
    simp only at e4
    simp only [e3, e4, Outcome.bind, Outcome.map']
  · refine byVersion_generated ?_
    refine .cons ⟨rfl, case_of (fun r h => by unfold made; rw [h]; rfl) r3⟩ ?_
    refine .cons ⟨rfl, case_of (fun r h => by unfold made; rw [h]; rfl) r4⟩ ?_
    exact .nil

theorem regenerated_HIPRO {sort : List Fld → List Fld} (hs : SortsByLine sort) (rest : Bytes → Option Bytes) :
    Regenerated sort rest versionedHIPRO := by
  obtain ⟨f3, e3, r3⟩ := faithful_HIPRO3 sort hs
  obtain ⟨f4, e4, r4⟩ := faithful_HIPRO4 sort hs
  refine ⟨[⟨b!"StatusProtocolResponseSegmentV3", 3, b!"Segment"⟩,
     ⟨b!"StatusProtocolResponseSegmentV4", 4, b!"Segment"⟩],
    [(3, f3), (4, f4)],
    flag_value rest (u := b!"StatusProtocolResponseSegmentV3:3:Segment,StatusProtocolResponseSegmentV4:4:Segment") (by unfold PlainText; decide +kernel) (by decide +kernel), ?_, ?_⟩
  · have n : ∀ b : Bytes, ∀ s : Str, nameText b = s → nameText b = s := fun _ _ h => h
    have n3 := n b!"StatusProtocolResponseSegmentV3" c!"StatusProtocolResponseSegmentV3" (by decide +kernel)
    have n4 := n b!"StatusProtocolResponseSegmentV4" c!"StatusProtocolResponseSegmentV4" (by decide +kernel)
    simp only [List.map_cons, List.map_nil, n3, n4, versionedHIPRO, versionFields]
    simp only at e3
    simp only at e4
    simp only [e3, e4, Outcome.bind, Outcome.map']
  · refine byVersion_generated ?_
    refine .cons ⟨rfl, case_of (fun r h => by unfold made; rw [h]; rfl) r3⟩ ?_
    refine .cons ⟨rfl, case_of (fun r h => by unfold made; rw [h]; rfl) r4⟩ ?_
    exact .nil

theorem regenerated_HISYN {sort : List Fld → List Fld} (hs : SortsByLine sort) (rest : Bytes → Option Bytes) :
    Regenerated sort rest versionedHISYN := by
  obtain ⟨f3, e3, r3⟩ := faithful_HISYN3 sort hs
  obtain ⟨f4, e4, r4⟩ := faithful_HISYN4 sort hs
  refine ⟨[⟨b!"SynchronisationResponseSegmentV3", 3, b!"Segment"⟩,
     ⟨b!"SynchronisationResponseSegmentV4", 4, b!"Segment"⟩],
    [(3, f3), (4, f4)],
    flag_value rest (u := b!"SynchronisationResponseSegmentV3:3,SynchronisationResponseSegmentV4:4") (by unfold PlainText; decide +kernel) (by decide +kernel), ?_, ?_⟩
  · have n : ∀ b : Bytes, ∀ s : Str, nameText b = s → nameText b = s := fun _ _ h => h
    have n3 := n b!"SynchronisationResponseSegmentV3" c!"SynchronisationResponseSegmentV3" (by decide +kernel)
    have n4 := n b!"SynchronisationResponseSegmentV4" c!"SynchronisationResponseSegmentV4" (by decide +kernel)
    simp only [List.map_cons, List.map_nil, n3, n4, versionedHISYN, versionFields]
    simp only at e3
    simp only at e4
    simp only [e3, e4, Outcome.bind, Outcome.map']
  · refine byVersion_generated ?_
    refine .cons ⟨rfl, case_of (fun r h => by unfold made; rw [h]; rfl) r3⟩ ?_
    refine .cons ⟨rfl, case_of (fun r h => by unfold made; rw [h]; rfl) r4⟩ ?_
    exact .nil

theorem regenerated_HITANS {sort : List Fld → List Fld} (hs : SortsByLine sort) (rest : Bytes → Option Bytes) :
    Regenerated sort rest versionedHITANS := by
  obtain ⟨f6, e6, r6⟩ := faithful_HITANS6 sort hs
  refine ⟨[⟨b!"TanBankParameterV6", 6, b!"Segment"⟩],
    [(6, f6)],
    flag_value rest (u := b!"TanBankParameterV6:6:Segment") (by unfold PlainText; decide +kernel) (by decide +kernel), ?_, ?_⟩
  · have n : ∀ b : Bytes, ∀ s : Str, nameText b = s → nameText b = s := fun _ _ h => h
    have n6 := n b!"TanBankParameterV6" c!"TanBankParameterV6" (by decide +kernel)
    simp only [List.map_cons, List.map_nil, n6, versionedHITANS, versionFields]
    simp only at e6
    simp only [e6, Outcome.bind, Outcome.map']
  · refine byVersion_generated ?_
    refine .cons ⟨rfl, case_of (fun r h => by unfold made; rw [h]; rfl) r6⟩ ?_
    exact .nil

theorem regenerated_HITAN {sort : List Fld → List Fld} (hs : SortsByLine sort) (rest : Bytes → Option Bytes) :
    Regenerated sort rest versionedHITAN := by
  obtain ⟨f6, e6, r6⟩ := faithful_HITAN6 sort hs
  refine ⟨[⟨b!"TanResponseSegmentV6", 6, b!"Segment"⟩],
    [(6, f6)],
    flag_value rest (u := b!"TanResponseSegmentV6:6:Segment") (by unfold PlainText; decide +kernel) (by decide +kernel), ?_, ?_⟩
  · have n : ∀ b : Bytes, ∀ s : Str, nameText b = s → nameText b = s := fun _ _ h => h
    have n6 := n b!"TanResponseSegmentV6" c!"TanResponseSegmentV6" (by decide +kernel)
    simp only [List.map_cons, List.map_nil, n6, versionedHITAN, versionFields]
    simp only at e6
    simp only [e6, Outcome.bind, Outcome.map']
  · refine byVersion_generated ?_
    refine .cons ⟨rfl, case_of (fun r h => by unfold made; rw [h]; rfl) r6⟩ ?_
    exact .nil

theorem regenerated_HIUPA {sort : List Fld → List Fld} (hs : SortsByLine sort) (rest : Bytes → Option Bytes) :
    Regenerated sort rest versionedHIUPA := by
  obtain ⟨f2, e2, r2⟩ := faithful_HIUPA2 sort hs
  obtain ⟨f3, e3, r3⟩ := faithful_HIUPA3 sort hs
  obtain ⟨f4, e4, r4⟩ := faithful_HIUPA4 sort hs
  refine ⟨[⟨b!"CommonUserParameterDataV2", 2, b!"Segment"⟩,
     ⟨b!"CommonUserParameterDataV3", 3, b!"Segment"⟩,
     ⟨b!"CommonUserParameterDataV4", 4, b!"Segment"⟩],
    [(2, f2), (3, f3), (4, f4)],
    flag_value rest (u := b!"CommonUserParameterDataV2:2:Segment,CommonUserParameterDataV3:3:Segment,CommonUserParameterDataV4:4:Segment") (by unfold PlainText; decide +kernel) (by decide +kernel), ?_, ?_⟩
  · have n : ∀ b : Bytes, ∀ s : Str, nameText b = s → nameText b = s := fun _ _ h => h
    have n2 := n b!"CommonUserParameterDataV2" c!"CommonUserParameterDataV2" (by decide +kernel)
    have n3 := n b!"CommonUserParameterDataV3" c!"CommonUserParameterDataV3" (by decide +kernel)
    have n4 := n b!"CommonUserParameterDataV4" c!"CommonUserParameterDataV4" (by decide +kernel)
    simp only [List.map_cons, List.map_nil, n2, n3, n4, versionedHIUPA, versionFields]
    simp only at e2
    simp only at e3
    simp only at e4
    simp only [e2, e3, e4, Outcome.bind, Outcome.map']
  · refine byVersion_generated ?_
    refine .cons ⟨rfl, case_of (fun r h => by unfold made; rw [h]; rfl) r2⟩ ?_
    refine .cons ⟨rfl, case_of (fun r h => by unfold made; rw [h]; rfl) r3⟩ ?_
    refine .cons ⟨rfl, case_of (fun r h => by unfold made; rw [h]; rfl) r4⟩ ?_
    exact .nil

/-- C133: for each of the thirteen segments with several versions, the flag in its line `go:generate` is accepted,
names the types of its versions, for all of which the generator finds the fields; and the reader it makes of them does
on all bytes what the checked-in reader does. -/
theorem C133_versioned {sort : List Fld → List Fld} (hs : SortsByLine sort) (rest : Bytes → Option Bytes) :
    ∀ w ∈ versioned, Regenerated sort rest w := by
  intro w hw
  simp only [versioned, List.mem_cons, List.not_mem_nil, or_false] at hw
  rcases hw with rfl | rfl | rfl | rfl | rfl | rfl | rfl | rfl | rfl | rfl | rfl | rfl | rfl
  · exact regenerated_HISAL hs rest
  · exact regenerated_HIKAZ hs rest
  · exact regenerated_HIUPD hs rest
  · exact regenerated_HIBPA hs rest
  · exact regenerated_HNVSK hs rest
  · exact regenerated_HIPINS hs rest
  · exact regenerated_HNSHA hs rest
  · exact regenerated_HNSHK hs rest
  · exact regenerated_HIPRO hs rest
  · exact regenerated_HISYN hs rest
  · exact regenerated_HITANS hs rest
  · exact regenerated_HITAN hs rest
  · exact regenerated_HIUPA hs rest

/-- C133: the versions in the flags are the versions in the index of known segments. -/
theorem C133_complete (rest : Bytes → Option Bytes) :
    ∀ w ∈ versioned, ((setVersions rest [] w.flag).1.map fun i => (w.id, i.version, nameText i.name)) =
      (sources.filter fun s => s.id = w.id).map fun s => (s.id, s.version, s.type) := by
  intro w hw
  simp only [versioned, List.mem_cons, List.not_mem_nil, or_false] at hw
  rcases hw with rfl | rfl | rfl | rfl | rfl | rfl | rfl | rfl | rfl | rfl | rfl | rfl | rfl
  · rw [show setVersions rest [] versionedHISAL.flag = ([⟨b!"AccountBalanceResponseSegmentV5", 5, b!"Segment"⟩, ⟨b!"AccountBalanceResponseSegmentV6", 6, b!"Segment"⟩, ⟨b!"AccountBalanceResponseSegmentV7", 7, b!"Segment"⟩, ⟨b!"AccountBalanceResponseSegmentV8", 8, b!"Segment"⟩], false) from
      flag_value rest (u := b!"AccountBalanceResponseSegmentV5:5:Segment,AccountBalanceResponseSegmentV6:6:Segment,AccountBalanceResponseSegmentV7:7:Segment,AccountBalanceResponseSegmentV8:8:Segment") (by unfold PlainText; decide +kernel) (by decide +kernel)]
    decide +kernel
  · rw [show setVersions rest [] versionedHIKAZ.flag = ([⟨b!"AccountTransactionResponseSegmentV5", 5, b!"Segment"⟩, ⟨b!"AccountTransactionResponseSegmentV6", 6, b!"Segment"⟩, ⟨b!"AccountTransactionResponseSegmentV7", 7, b!"Segment"⟩], false) from
      flag_value rest (u := b!"AccountTransactionResponseSegmentV5:5:Segment,AccountTransactionResponseSegmentV6:6:Segment,AccountTransactionResponseSegmentV7:7:Segment") (by unfold PlainText; decide +kernel) (by decide +kernel)]
    decide +kernel
  · rw [show setVersions rest [] versionedHIUPD.flag = ([⟨b!"AccountInformationV4", 4, b!"Segment"⟩, ⟨b!"AccountInformationV5", 5, b!"Segment"⟩, ⟨b!"AccountInformationV6", 6, b!"Segment"⟩, ⟨b!"AccountInformationV7", 7, b!"Segment"⟩], false) from
      flag_value rest (u := b!"AccountInformationV4:4:Segment,AccountInformationV5:5:Segment,AccountInformationV6:6:Segment,AccountInformationV7:7:Segment") (by unfold PlainText; decide +kernel) (by decide +kernel)]
    decide +kernel
  · rw [show setVersions rest [] versionedHIBPA.flag = ([⟨b!"CommonBankParameterV2", 2, b!"Segment"⟩, ⟨b!"CommonBankParameterV3", 3, b!"Segment"⟩], false) from
      flag_value rest (u := b!"CommonBankParameterV2:2,CommonBankParameterV3:3") (by unfold PlainText; decide +kernel) (by decide +kernel)]
    decide +kernel
  · rw [show setVersions rest [] versionedHNVSK.flag = ([⟨b!"EncryptionHeaderV2", 2, b!"ClientSegment"⟩, ⟨b!"EncryptionHeaderSegmentV3", 3, b!"ClientSegment"⟩], false) from
      flag_value rest (u := b!"EncryptionHeaderV2:2:ClientSegment,EncryptionHeaderSegmentV3:3:ClientSegment") (by unfold PlainText; decide +kernel) (by decide +kernel)]
    decide +kernel
  · rw [show setVersions rest [] versionedHIPINS.flag = ([⟨b!"PinTanBankParameterV1", 1, b!"Segment"⟩], false) from
      flag_value rest (u := b!"PinTanBankParameterV1:1:Segment") (by unfold PlainText; decide +kernel) (by decide +kernel)]
    decide +kernel
  · rw [show setVersions rest [] versionedHNSHA.flag = ([⟨b!"SignatureEndV1", 1, b!"ClientSegment"⟩, ⟨b!"SignatureEndV2", 2, b!"ClientSegment"⟩], false) from
      flag_value rest (u := b!"SignatureEndV1:1:ClientSegment,SignatureEndV2:2:ClientSegment") (by unfold PlainText; decide +kernel) (by decide +kernel)]
    decide +kernel
  · rw [show setVersions rest [] versionedHNSHK.flag = ([⟨b!"SignatureHeaderV3", 3, b!"ClientSegment"⟩, ⟨b!"SignatureHeaderSegmentV4", 4, b!"ClientSegment"⟩], false) from
      flag_value rest (u := b!"SignatureHeaderV3:3:ClientSegment,SignatureHeaderSegmentV4:4:ClientSegment") (by unfold PlainText; decide +kernel) (by decide +kernel)]
    decide +kernel
  · rw [show setVersions rest [] versionedHIPRO.flag = ([⟨b!"StatusProtocolResponseSegmentV3", 3, b!"Segment"⟩, ⟨b!"StatusProtocolResponseSegmentV4", 4, b!"Segment"⟩], false) from
      flag_value rest (u := b!"StatusProtocolResponseSegmentV3:3:Segment,StatusProtocolResponseSegmentV4:4:Segment") (by unfold PlainText; decide +kernel) (by decide +kernel)]
    decide +kernel
  · rw [show setVersions rest [] versionedHISYN.flag = ([⟨b!"SynchronisationResponseSegmentV3", 3, b!"Segment"⟩, ⟨b!"SynchronisationResponseSegmentV4", 4, b!"Segment"⟩], false) from
      flag_value rest (u := b!"SynchronisationResponseSegmentV3:3,SynchronisationResponseSegmentV4:4") (by unfold PlainText; decide +kernel) (by decide +kernel)]
    decide +kernel
  · rw [show setVersions rest [] versionedHITANS.flag = ([⟨b!"TanBankParameterV6", 6, b!"Segment"⟩], false) from
      flag_value rest (u := b!"TanBankParameterV6:6:Segment") (by unfold PlainText; decide +kernel) (by decide +kernel)]
    decide +kernel
  · rw [show setVersions rest [] versionedHITAN.flag = ([⟨b!"TanResponseSegmentV6", 6, b!"Segment"⟩], false) from
      flag_value rest (u := b!"TanResponseSegmentV6:6:Segment") (by unfold PlainText; decide +kernel) (by decide +kernel)]
    decide +kernel
  · rw [show setVersions rest [] versionedHIUPA.flag = ([⟨b!"CommonUserParameterDataV2", 2, b!"Segment"⟩, ⟨b!"CommonUserParameterDataV3", 3, b!"Segment"⟩, ⟨b!"CommonUserParameterDataV4", 4, b!"Segment"⟩], false) from
      flag_value rest (u := b!"CommonUserParameterDataV2:2:Segment,CommonUserParameterDataV3:3:Segment,CommonUserParameterDataV4:4:Segment") (by unfold PlainText; decide +kernel) (by decide +kernel)]
    decide +kernel

/-- A concrete case: the header names version 4. -/
example : (readSync b!"HISYN:7:4:4+LOGIN42'") = .ok (.sync ⟨⟨c!"HISYN", 7, 4, some 4⟩, some c!"LOGIN42", none, none⟩) := by
  decide +kernel

example : versioned.length = 13 := rfl

end Verif.Generator

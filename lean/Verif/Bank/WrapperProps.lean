import Verif.Bank.Wrappers

/-
C116: segments that exist in several versions are read as the version they name.
-/

namespace Verif.Bank

open GoLib Element Segment Message

/-! ## Specification -/

/-- `read` reads segments as the table of known segments does for the ID `id` and the version the segment
names, and knows no other versions. -/
structure AsListed (id : Str) (read : Bytes → Outcome BankSeg) : Prop where
  known : ∀ b h f, extractSegmentHeader b = .ok h → decoders id h.version = some f → read b = f b
  unknown : ∀ b h, extractSegmentHeader b = .ok h → decoders id h.version = none → read b = .err
  err : ∀ b, extractSegmentHeader b = .err → read b = .err
  panic : ∀ b, extractSegmentHeader b = .panic → read b = .panic

/-! ## Theorems -/

theorem asListed {id : Str} {cases : List (Int × (Bytes → Outcome BankSeg))}
    (table : (known.filter fun e => e.1 == id).map Prod.snd = cases) : AsListed id (byVersion cases) := by
  have h : ∀ v, decoders id v = (cases.find? fun c => c.1 == v).map fun c => c.2 := by
    intro v
    rw [← table, List.find?_map, List.find?_filter, Option.map_map]
    unfold decoders
    congr 2
    funext e
    simp only [Bool.decide_and, Bool.decide_eq_true, Function.comp_apply]
  have key : ∀ b, byVersion cases b = (extractSegmentHeader b).bind fun h =>
      match decoders id h.version with
      | some f => f b
      | none => .err := by
    intro b
    unfold byVersion extractSegmentHeader
    cases Segment.extractElements b with
    | err => rfl
    | panic => rfl
    | ok es =>
      cases es with
      | nil => rfl
      | cons hb r =>
        simp only [Outcome.bind]
        cases unmarshalHeader hb with
        | err => rfl
        | panic => rfl
        | ok hd =>
          simp only [h]
          cases cases.find? fun c => c.1 == hd.version <;> rfl
  refine ⟨fun b hd f h1 h2 => ?_, fun b hd h1 h2 => ?_, fun b h1 => ?_, fun b h1 => ?_⟩
  all_goals rw [key, h1]
  · simp only [Outcome.bind, h2]
  · simp only [Outcome.bind, h2]
  · rfl
  · rfl

/-- C116: whoever reads a segment without knowing its version gets what the version named by the segment
gives, the one `Unmarshal` uses, and an error for versions `Unmarshal` does not know. -/
theorem C116_versions :
    AsListed c!"HISAL" readBalance ∧ AsListed c!"HIKAZ" readTransactions ∧ AsListed c!"HIUPD" readAccount ∧
    AsListed c!"HIBPA" readBankParams ∧ AsListed c!"HNVSK" readEncryptionHeader ∧ AsListed c!"HIPINS" readPinParams ∧
    AsListed c!"HNSHA" readSignatureEnd ∧ AsListed c!"HNSHK" readSignatureHeader ∧ AsListed c!"HIPRO" readStatus ∧
    AsListed c!"HISYN" readSync ∧ AsListed c!"HITANS" readTanParams ∧ AsListed c!"HITAN" readTan ∧
    AsListed c!"HIUPA" readUserParams := by
  refine ⟨?_, ?_, ?_, ?_, ?_, ?_, ?_, ?_, ?_, ?_, ?_, ?_, ?_⟩ <;> exact asListed rfl

/-- A concrete case: a synchronisation response of version 4. -/
example :
    extractSegmentHeader b!"HISYN:7:4:4+LOGIN42'" = .ok ⟨c!"HISYN", 7, 4, some 4⟩ ∧
    (decoders c!"HISYN" 4).isSome ∧ decoders c!"HISYN" 5 = none := by
  refine ⟨by decide +kernel, by decide +kernel, ?_⟩
  rfl

/-- C116: they do not look at the ID: a segment of another kind is read all the same. -/
theorem C116_any_id : ∃ b h s, extractSegmentHeader b = .ok h ∧ h.id ≠ c!"HISYN" ∧
    decoders h.id h.version = none ∧ readSync b = .ok (.sync s) :=
  ⟨b!"HIXYZ:5:4:3+LOGIN42'", ⟨c!"HIXYZ", 5, 4, some 3⟩, ⟨⟨c!"HIXYZ", 5, 4, some 3⟩, some c!"LOGIN42", none, none⟩,
    by decide +kernel, by decide, rfl, by decide +kernel⟩

/-- C116: bytes without any element make them panic, where the version itself reports an error. -/
theorem C116_nothing : readSync [] = .panic ∧ unmarshalSync [] = .err := by
  decide +kernel

end Verif.Bank

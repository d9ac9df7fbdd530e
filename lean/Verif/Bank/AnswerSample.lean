import Verif.Bank.Envelope

/-
A concrete answer for the examples of C95.  Nothing here is part of the model.
-/

namespace Verif.Bank.Sample

open GoLib Element Element.Spec Segment Segment.Spec Message Message.Spec Dialog Domain Transport

/-- What the bank says about itself. -/
def bank : AboutBank := ⟨12, 280, c!"10000000", c!"Bank: A+B", 1, [1, 2], [220, 300], [9999]⟩

theorem bank_good : bank.Good 3 := by
  refine ⟨by unfold IsInt; decide, by unfold IsInt; decide, ⟨sendable_of (by decide) (by decide), by unfold NoSep; decide⟩,
    sendable_of (by decide) (by decide), by unfold IsInt; decide, by decide, ⟨by decide, by decide, ?_⟩, ⟨?_, by decide⟩, by decide⟩
  · unfold IsInt; decide
  · unfold IsInt; decide

/-- Which transactions need a TAN. -/
def pins : AboutPins := ⟨1, 1, 0, some 5, some 20, some 6, c!"VR-Kennung", [], [(c!"HKCCS", true), (c!"HKKAZ", false)]⟩

theorem pins_good : pins.Good := by
  refine ⟨⟨by unfold IsInt; decide, by unfold IsInt; decide, by unfold IsInt; decide⟩, ?_, ?_, by decide⟩
  · intro o ho n hn
    subst hn
    simp [pins] at ho
    rcases ho with rfl | rfl | rfl <;> (unfold IsInt; decide)
  · intro s hs
    simp only [pins, List.map_cons, List.map_nil, List.mem_cons, List.not_mem_nil, or_false] at hs
    rcases hs with rfl | rfl | rfl | rfl
    all_goals exact ⟨sendable_of (by decide) (by decide), by unfold NoSep; decide⟩

theorem account_good : sampleAccount.Good := by
  refine ⟨?_, ?_, ?_, ?_, ?_⟩
  · rintro c hc
    cases hc
    refine ⟨by unfold IsInt; decide, fun s hs => ?_⟩
    simp only [List.mem_cons, List.not_mem_nil, or_false] at hs
    rcases hs with rfl | rfl | rfl
    all_goals exact ⟨sendable_of (by decide) (by decide), by unfold NoSep; decide⟩
  · rintro n hn; cases hn; unfold IsInt; decide
  · intro s hs
    simp only [sampleAccount, List.mem_cons, List.not_mem_nil, or_false] at hs
    rcases hs with rfl | rfl | rfl | rfl | rfl | rfl
    all_goals exact sendable_of (by decide) (by decide)
  · rintro l hl; cases hl
  · intro t ht
    simp only [sampleAccount, List.mem_cons, List.not_mem_nil, or_false] at ht
    rcases ht with rfl | rfl
    all_goals
      refine ⟨⟨sendable_of (by decide) (by decide), by unfold NoSep; decide⟩, by unfold IsInt; decide, ?_⟩
      rintro l hl; cases hl

theorem tans_good : (sampleTans (some 1)).Good := by
  refine ⟨⟨by unfold IsInt; decide, by unfold IsInt; decide⟩, sendable_of (by decide) (by decide), ?_, ?_, by decide +kernel⟩
  · exact ⟨sendable_comma (by decide) (by decide), by unfold NoSep; decide⟩
  · intro q hq
    simp only [sampleTans, List.mem_cons, List.not_mem_nil, or_false] at hq
    rcases hq with rfl | rfl
    all_goals
      refine ⟨?_, ?_, ?_⟩
      · intro s hs
        simp only [sampleProcedure, List.mem_cons, List.not_mem_nil, or_false] at hs
        rcases hs with rfl | rfl | rfl | rfl | rfl | rfl | rfl | rfl | rfl | rfl | rfl | rfl | rfl
        all_goals exact ⟨sendable_comma (by decide) (by decide), by unfold NoSep; decide⟩
      · intro o ho n hn
        subst hn
        simp only [sampleProcedure, List.mem_cons, List.not_mem_nil, or_false, Option.some.injEq] at ho
        rcases ho with rfl | rfl | rfl <;> (unfold IsInt; decide)
      · simp only [sampleProcedure]
        decide

/-- The acknowledgements: everything is fine, and these are the security functions. -/
def acks : List Ack := [⟨10, [], c!"ok", []⟩, ⟨3920, [], c!"TAN", [c!"902"]⟩]

theorem acks_good : ∀ a ∈ acks, a.Good := by
  intro a ha
  simp only [acks, List.mem_cons, List.not_mem_nil, or_false] at ha
  rcases ha with rfl | rfl
  all_goals
    refine ⟨by decide, fun s hs => ?_⟩
    simp only [List.mem_cons, List.not_mem_nil, or_false] at hs
  · rcases hs with rfl | rfl <;> exact ⟨sendable_of (by decide) (by decide), by unfold NoSep; decide⟩
  · rcases hs with rfl | rfl | rfl <;> exact ⟨sendable_of (by decide) (by decide), by unfold NoSep; decide⟩

/-- The segments of an answer to a synchronisation, one of them unknown. -/
def answer : List Placed :=
  [⟨.overall [⟨10, [], c!"ok", []⟩], 2, none⟩, ⟨.about acks, 3, some 4⟩, ⟨.unknown c!"HIXYZ" 1 [b!"a", b!"b:c"], 4, none⟩,
   ⟨.bank 3 bank, 5, some 5⟩, ⟨.user 4 ⟨c!"4711", 7, 0, c!"Ada L.", []⟩ [b!"4711", b!"7", b!"0", b!"Ada L."], 6, some 5⟩,
   ⟨.account 5 sampleAccount (sampleAccount.fields 5), 7, some 5⟩, ⟨.pins pins, 8, some 5⟩, ⟨.tans (sampleTans (some 1)), 9, some 5⟩,
   ⟨.system 4 c!"sys+1" [], 10, some 6⟩]

theorem answer_good : ∀ p ∈ answer, p.Good := by
  have hi : ∀ n : Int, 0 ≤ n → n ≤ 100 → IsInt n := fun n h1 h2 => ⟨by omega, by omega⟩
  intro p hp
  simp only [answer, List.mem_cons, List.not_mem_nil, or_false] at hp
  rcases hp with rfl | rfl | rfl | rfl | rfl | rfl | rfl | rfl | rfl
  all_goals
    refine ⟨?_, hi _ (by decide) (by decide), ?_, by decide +kernel, by simp⟩
    on_goal 2 => rintro r hr; cases hr; try exact hi _ (by decide) (by decide)
  · exact fun a ha => acks_good a (by simp [acks] at ha ⊢; exact .inl ha)
  · exact acks_good
  · refine ⟨by decide, by decide, hi _ (by decide) (by decide), ?_, by decide, by decide, by decide, by decide⟩
    intro f hf
    simp only [List.mem_cons, List.not_mem_nil, or_false] at hf
    have ha : ∀ s : Str, (s.all fun c => decide (c.toNat ≤ 255) && c != '\x00') = true → s.head? ≠ some '0' → Field (enc (escape s)) :=
      fun s h1 h2 => field_of_part (part_of_sendable (sendable_of h1 h2))
    rcases hf with rfl | rfl
    · exact ha c!"a" (by decide) (by decide)
    · exact field_join (ha c!"b" (by decide) (by decide)) (ha c!"c" (by decide) (by decide))
  · exact ⟨by decide, bank_good, by decide⟩
  · refine ⟨by decide, ⟨hi _ (by decide) (by decide), hi _ (by decide) (by decide)⟩, ?_, ⟨1, by decide +kernel, by decide⟩, by decide⟩
    intro s hs
    simp only [List.mem_cons, List.not_mem_nil, or_false] at hs
    rcases hs with rfl | rfl | rfl <;> exact sendable_of (by decide) (by decide)
  · exact ⟨by decide, account_good, ⟨0, by decide +kernel, by decide +kernel⟩, rfl, by decide, by decide, by decide, by decide⟩
  · exact ⟨pins_good, by decide, by decide, by decide, by decide⟩
  · exact ⟨tans_good, by decide, by decide, by decide⟩
  · exact ⟨by decide, sendable_of (by decide) (by decide), by decide, by simp, by decide⟩

/-- The envelope. -/
def envelope : Envelope := ⟨480, 300, c!"dia:1", 1, c!"dia0", 1, 998, 3, [b!"PIN", b!"998"], 999, 11⟩

theorem envelope_good : envelope.Good := by
  have ha : ∀ s : Str, (s.all fun c => decide (c.toNat ≤ 255) && c != '\x00') = true → s.head? ≠ some '0' → Sendable s :=
    fun s h1 h2 => sendable_of h1 h2
  refine ⟨by unfold IsInt; decide, by decide, ⟨ha _ (by decide) (by decide), by decide⟩, ⟨ha _ (by decide) (by decide), by unfold NoSep; decide⟩,
    ⟨?_, by decide⟩, by decide⟩
  intro f hf
  simp only [envelope, List.mem_cons, List.not_mem_nil, or_false] at hf
  rcases hf with rfl | rfl
  · exact field_of_part (part_of_sendable (ha c!"PIN" (by decide) (by decide)))
  · exact field_of_part (part_of_sendable (ha c!"998" (by decide) (by decide)))

theorem welcoming : Welcoming envelope answer := by
  have h : acknowledged envelope.header.referencingMessage answer =
      [⟨.message, 10, [], c!"ok", [], ⟨c!"dia0", 1⟩, 0⟩, ⟨.segment, 10, [], c!"ok", [], ⟨[], 0⟩, 4⟩,
        ⟨.segment, 3920, [], c!"TAN", [c!"902"], ⟨[], 0⟩, 4⟩] := by decide +kernel
  refine ⟨by rw [h]; decide, ?_⟩
  rw [h]
  intro a ha fs hfs
  have hf : firstSaid Item.procedures answer = some [(c!"901", some c!"SMS"), (c!"902", some c!"push?: TAN")] := by decide +kernel
  rw [hf] at hfs
  cases hfs
  have : a = ⟨.segment, 3920, [], c!"TAN", [c!"902"], ⟨[], 0⟩, 4⟩ := by simpa using ha.symm
  subst this
  exact ⟨c!"902", by simp, (c!"902", some c!"push?: TAN"), by simp, rfl⟩

/-- A bank that gives this answer to every message. -/
def world : World BankSeg AccountInformation where
  decoders := decoders
  views := views
  controlRef _ := c!"1234"
  env n := ⟨fun _ => .ok (envelope.bytes answer, true), ⟨2020, 1, 2, 3, 4, 5, 0⟩, ⟨2020, 1, 2, 3, 4, 5, 0⟩, n⟩

/-- A new dialog with a PIN. -/
def fresh : St BankSeg AccountInformation :=
  (setPin world c!"secret" ⟨newPinTanDialog world ⟨280, c!"10000000"⟩ c!"user" .fints300 [] [], 0, []⟩).2

theorem answer_length : (answer.map Placed.bytes).flatten.length ≤ 2 ^ 48 := by decide +kernel

theorem fresh_sends : CanSend (resetCrypto fresh.d) (syncSegments fresh.d) := by
  have h : ∀ x ∈ syncSegments fresh.d, ∀ y ∈ x, Latin1 y.header.id ∧ ∀ t ∈ textsAll y.elements, Latin1 t := by
    unfold Latin1
    decide +kernel
  refine ⟨by decide, by unfold Latin1; decide +kernel, by unfold Latin1; decide +kernel, fun x hx => h _ hx x rfl⟩

end Verif.Bank.Sample

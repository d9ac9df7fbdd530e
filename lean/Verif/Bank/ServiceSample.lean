import Verif.Bank.ServiceLemmas
import Verif.Bank.AnswerSample

/-
A bank that answers requests for transactions and balances, for the examples of C101 and C102.
Nothing here is part of the model.
-/

namespace Verif.Bank.Sample

open GoLib Element Element.Spec Segment Segment.Spec Message Message.Spec Dialog Domain Transport Client

theorem small_int {n : Int} (h1 : 0 ≤ n) (h2 : n ≤ 100000) : IsInt n := ⟨by omega, by omega⟩

/-- An answer that only says that all is well. -/
def fine : Answer := ⟨envelope, [⟨.overall [⟨10, [], c!"ok", []⟩], 2, none⟩]⟩

theorem overall_good : Placed.Good ⟨.overall [⟨10, [], c!"ok", []⟩], 2, none⟩ := by
  refine ⟨fun a ha => acks_good a ?_, small_int (by decide) (by decide), by simp, by decide +kernel, fun _ => .inl ⟨_, rfl⟩⟩
  rw [List.mem_singleton] at ha
  subst ha
  simp [acks]

theorem fine_good : fine.Good := ⟨envelope_good, by
  intro p hp
  rw [fine, List.mem_singleton] at hp
  subst hp
  exact overall_good, by decide +kernel⟩

/-- There is more, under the reference `n+1`. -/
def more : Placed := ⟨.about [⟨3040, [], c!"more", [c!"next"]⟩], 3, some 4⟩

theorem more_good : more.Good := by
  refine ⟨?_, small_int (by decide) (by decide), ?_, by decide +kernel, by simp [more]⟩
  · intro a ha
    rw [List.mem_singleton] at ha
    subst ha
    refine ⟨by decide, fun s hs => ?_⟩
    simp only [List.mem_cons, List.not_mem_nil, or_false] at hs
    rcases hs with rfl | rfl | rfl <;> exact ⟨sendable_of (by decide) (by decide), by unfold NoSep; decide⟩
  · rintro r hr
    cases hr
    exact small_int (by decide) (by decide)

theorem answer_of {ps : List Placed} (h : ∀ p ∈ ps, p.Good) (hl : (ps.map Placed.bytes).flatten.length ≤ 2 ^ 48) :
    Answer.Good ⟨envelope, ps⟩ := ⟨envelope_good, h, hl⟩

/-- A page with a part of the statements. -/
def statementPage (part : Bytes) (cont : Bool) : Answer :=
  ⟨envelope, [⟨.overall [⟨10, [], c!"ok", []⟩], 2, none⟩] ++ (if cont then [more] else []) ++ [⟨.statement 6 part none, 4, some 4⟩]⟩

theorem statement_good {part : Bytes} (h : part.length ≤ 2000) : Placed.Good ⟨.statement 6 part none, 4, some 4⟩ := by
  refine ⟨⟨by simp, by omega, by simp⟩, small_int (n := 4) (by decide) (by decide), ?_, ?_, by simp⟩
  · rintro r hr
    cases hr
    exact small_int (by decide) (by decide)
  · simp only [Item.fields, Option.map_none, Option.toList_none, List.flatMap_cons, List.flatMap_nil, List.append_nil, List.length_cons]
    have : (binaryOf part).length ≤ part.length + 100 := by
      have := itoa_length_le (n := (part.length : Int)) (small_int (by omega) (by omega))
      unfold itoa at this
      rw [if_neg (by omega), Int.natAbs_natCast] at this
      unfold binaryOf
      simp only [List.length_append, List.length_cons, List.length_nil]
      omega
    omega

/-- A usual report of a SEPA account. -/
def sepaReport : Report InternationalConnection :=
  ⟨⟨c!"DE00100200300000123456", c!"ABCDDEFF", c!"123456", [], 280, c!"10020030"⟩, sampleReport.product, sampleReport.currency,
    sampleReport.booked, sampleReport.earmarked, sampleReport.creditLimit, sampleReport.available, sampleReport.used, sampleReport.date,
    sampleReport.time, sampleReport.due⟩

theorem writes_of_plain {es : List (Option DE)} {out : List Bytes} {ps : List Bytes} (h1 : es.map DE.marshalOpt = ps.map .ok)
    (h2 : DropTrailing ps out) (h : ∀ e, some e ∈ es → Plain e) : Writes es out :=
  ⟨⟨ps, h1, h2⟩, fun e he => plain_sound e (h e he), notCut_of_last (Or.inr rfl) (plains_last _ (plainAll_iff.2 h))⟩

/-- The fields of a balance after the account. -/
def rest : List Bytes := [b!"Girokonto", b!"EUR", b!"D:12,5:EUR:20240301", [], b!"500,:EUR", [], [], b!"20240301", b!"103000"]

/-- A balance. -/
def balance : Placed := ⟨.balance 6 sampleReport (b!"123456::280:10020030" :: rest), 3, some 4⟩

/-- A balance of a SEPA account. -/
def sepaBalance : Placed :=
  ⟨.sepaBalance 7 sepaReport none (b!"DE00100200300000123456:ABCDDEFF:123456::280:10020030" :: rest), 4, some 4⟩

theorem balance_good : balance.Good := by
  refine ⟨⟨by simp, sampleReport_good, ?_, by simp [sampleReport]⟩, small_int (by decide) (by decide), ?_, by decide +kernel, by simp [balance]⟩
  · exact writes_of_plain (ps := b!"123456::280:10020030" :: rest ++ [[]]) (by decide +kernel) ⟨1, rfl, by decide⟩ sampleReport_plain
  · rintro r hr
    cases hr
    exact small_int (by decide) (by decide)

theorem sepaBalance_good : sepaBalance.Good := by
  refine ⟨⟨by simp, ?_, by simp, by simp, ?_, by simp [sepaReport, sampleReport]⟩, small_int (by decide) (by decide), ?_, by decide +kernel,
    by simp [sepaBalance]⟩
  · have g := sampleReport_good
    exact ⟨⟨sendable_of (by decide) (by decide), sendable_of (by decide) (by decide), sendable_of (by decide) (by decide),
      sendable_of (by decide) (by decide), sendable_of (by decide) (by decide), by unfold IsInt; decide, by decide, by decide,
      by unfold NoSep; decide⟩, g.product, g.currency, g.booked, g.earmarked, g.creditLimit, g.available, g.used, g.date, g.time, g.due⟩
  · refine writes_of_plain (ps := b!"DE00100200300000123456:ABCDDEFF:123456::280:10020030" :: rest ++ [[]]) (by decide +kernel)
      ⟨1, rfl, by decide⟩ ?_
    rw [← plainAll_iff]
    simp only [sepaElements, sepaReport, sampleReport, Report.elements, internationalDE, bankIdentification, balanceDE, amountDE, Option.map,
      PlainAll, PlainOpt, Plain, and_true, true_and, Bool.false_eq_true, if_false, List.append_nil,
      show ((7 : Int) = 8) = False by simp]
    refine ⟨⟨?_, ?_, ?_, ?_, ?_⟩, ?_, ?_, ⟨?_, ?_, ?_⟩, ?_, ?_⟩
    all_goals first
      | exact plainText_of (by decide) (by decide) (by decide) (by decide)
      | exact canonical_of (by decide) (by decide)
  · rintro r hr
    cases hr
    exact small_int (by decide) (by decide)

/-- A bank that gives these answers, and then only says that all is well. -/
def answering (pages : List Answer) : World BankSeg AccountInformation where
  decoders := decoders
  views := views
  controlRef _ := c!"1234"
  env n := ⟨fun _ => .ok (if n % 3 = 2 then (pages.getD (n / 3) fine).bytes else fine.bytes, true), ⟨2020, 1, 2, 3, 4, 5, 0⟩,
    ⟨2020, 1, 2, 3, 4, 5, 0⟩, n⟩

/-- A client of that bank. -/
def served (pages : List Answer) : Setup BankSeg AccountInformation (AccountBalance AccountConnection)
    (AccountBalance InternationalConnection) StatusAcknowledgement where
  world := answering pages
  views := clientViews Time.zeroTime
  sorter := insertionSorter
  clock n := n
  today _ := ⟨2020, 1, 2, 0, 0, 0, 0⟩

/-- A client that has been synchronised. -/
def synchronised : CSt BankSeg AccountInformation :=
  ⟨{ fresh with d := { fresh.d with
      clientSystemId := c!"sys+1"
      bankParameterData := { fresh.d.bankParameterData with parameters := ⟨12, ⟨280, c!"10000000"⟩, c!"Bank", 1, 0, 0, 0⟩ }
      supportedSegments := [(c!"HISALS", 5), (c!"HISALS", 7), (c!"HIKAZS", 6)] } }, 0⟩

theorem synchronised_settled : Settled synchronised.st.d := ⟨by decide, by decide, by decide, by unfold Latin1; decide +kernel⟩

theorem fine_visit {a : Answer} (h : a.Good) : Visit.Good ⟨fine, a, fine⟩ := by
  have : acknowledged fine.envelope.header.referencingMessage fine.segments = [⟨.message, 10, [], c!"ok", [], ⟨c!"dia0", 1⟩, 0⟩] := by
    decide +kernel
  have known : firstSaid Item.bankParameters fine.segments = none := by decide +kernel
  exact ⟨fine_good, h, fine_good, ⟨by rw [this]; decide, by rw [this]; simp⟩, known⟩

end Verif.Bank.Sample

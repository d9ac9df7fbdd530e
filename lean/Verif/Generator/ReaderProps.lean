import Verif.Generator.ReaderLemmas

/-
C129: the readers that are checked in do what the generator makes of the source files.

`Bank.known` is the index of segments with the readers checked in at segment/*_unmarshaler.go; `sources` says
from which type in which source file each was generated, and which segment its fields make, by name.
-/

namespace Verif.Generator

open GoLib Element Segment Message Bank

/-- C129: the registered readers and the types in the source files correspond one to one, by ID and version, and
each reader does on all bytes what the code does that the generator makes of its type today: the same header, the
same values in the fields of the same names, the same errors, the same panics. The one exception is written by
hand. -/
theorem C129_readers {sort : List Fld → List Fld} (hs : SortsByLine sort) :
    List.Forall₂ (fun e s => e.1 = s.id ∧ e.2.1 = s.version ∧
      ∃ fs, extractFields sort s.file s.type = .ok fs ∧ ∀ b, e.2.2 b = (generatedCode readElement fs b).map' s.seg)
      (known.filter fun e => e.1 ≠ c!"DIPINS") sources := by
  have hf : (known.filter fun e => e.1 ≠ c!"DIPINS") = known.tail := by
    simp [known]
  rw [hf]
  unfold known sources
  simp only [List.tail_cons]
  refine .cons ⟨rfl, rfl, faithful_HNHBK3 sort hs⟩ ?_
  refine .cons ⟨rfl, rfl, faithful_HNHBS1 sort hs⟩ ?_
  refine .cons ⟨rfl, rfl, faithful_HNVSK2 sort hs⟩ ?_
  refine .cons ⟨rfl, rfl, faithful_HNVSK3 sort hs⟩ ?_
  refine .cons ⟨rfl, rfl, faithful_HNVSD1 sort hs⟩ ?_
  refine .cons ⟨rfl, rfl, faithful_HNSHK3 sort hs⟩ ?_
  refine .cons ⟨rfl, rfl, faithful_HNSHK4 sort hs⟩ ?_
  refine .cons ⟨rfl, rfl, faithful_HNSHA1 sort hs⟩ ?_
  refine .cons ⟨rfl, rfl, faithful_HNSHA2 sort hs⟩ ?_
  refine .cons ⟨rfl, rfl, faithful_HISYN3 sort hs⟩ ?_
  refine .cons ⟨rfl, rfl, faithful_HISYN4 sort hs⟩ ?_
  refine .cons ⟨rfl, rfl, faithful_HIBPA2 sort hs⟩ ?_
  refine .cons ⟨rfl, rfl, faithful_HIBPA3 sort hs⟩ ?_
  refine .cons ⟨rfl, rfl, faithful_HIUPA2 sort hs⟩ ?_
  refine .cons ⟨rfl, rfl, faithful_HIUPA3 sort hs⟩ ?_
  refine .cons ⟨rfl, rfl, faithful_HIUPA4 sort hs⟩ ?_
  refine .cons ⟨rfl, rfl, faithful_HIUPD4 sort hs⟩ ?_
  refine .cons ⟨rfl, rfl, faithful_HIUPD5 sort hs⟩ ?_
  refine .cons ⟨rfl, rfl, faithful_HIUPD6 sort hs⟩ ?_
  refine .cons ⟨rfl, rfl, faithful_HIUPD7 sort hs⟩ ?_
  refine .cons ⟨rfl, rfl, faithful_HIPINS1 sort hs⟩ ?_
  refine .cons ⟨rfl, rfl, faithful_HITANS6 sort hs⟩ ?_
  refine .cons ⟨rfl, rfl, faithful_HITAN6 sort hs⟩ ?_
  refine .cons ⟨rfl, rfl, faithful_HIKIM2 sort hs⟩ ?_
  refine .cons ⟨rfl, rfl, faithful_HIKAZ5 sort hs⟩ ?_
  refine .cons ⟨rfl, rfl, faithful_HIKAZ6 sort hs⟩ ?_
  refine .cons ⟨rfl, rfl, faithful_HIKAZ7 sort hs⟩ ?_
  refine .cons ⟨rfl, rfl, faithful_HISAL5 sort hs⟩ ?_
  refine .cons ⟨rfl, rfl, faithful_HISAL6 sort hs⟩ ?_
  refine .cons ⟨rfl, rfl, faithful_HISAL7 sort hs⟩ ?_
  refine .cons ⟨rfl, rfl, faithful_HISAL8 sort hs⟩ ?_
  refine .cons ⟨rfl, rfl, faithful_HIPRO3 sort hs⟩ ?_
  refine .cons ⟨rfl, rfl, faithful_HIPRO4 sort hs⟩ ?_
  refine .cons ⟨rfl, rfl, faithful_HIKIF1 sort hs⟩ ?_
  refine .cons ⟨rfl, rfl, faithful_HIKOM3 sort hs⟩ ?_
  refine .cons ⟨rfl, rfl, faithful_HIKPV1 sort hs⟩ ?_
  refine .cons ⟨rfl, rfl, faithful_HISHV2 sort hs⟩ ?_
  exact .nil

/-- C129: so whatever reader the index has for an ID and a version, except the one written by hand, it was
generated from a type registered for them. -/
theorem C129_index {sort : List Fld → List Fld} (hs : SortsByLine sort) {id : Str} {version : Int}
    {read : Bytes → Outcome BankSeg} (hr : decoders id version = some read) :
    id = c!"DIPINS" ∨ ∃ s ∈ sources, s.id = id ∧ s.version = version ∧
      ∃ fs, extractFields sort s.file s.type = .ok fs ∧ ∀ b, read b = (generatedCode readElement fs b).map' s.seg := by
  unfold decoders at hr
  obtain ⟨e, he, rfl⟩ := Option.map_eq_some_iff.1 hr
  have hm := List.mem_of_find?_eq_some he
  have hp := List.find?_some he
  simp only [Bool.and_eq_true, beq_iff_eq] at hp
  obtain ⟨rfl, rfl⟩ := hp
  by_cases hd : e.1 = c!"DIPINS"
  · exact .inl hd
  · right
    have hin : e ∈ known.filter fun e => e.1 ≠ c!"DIPINS" := by simp [hm, hd]
    have h := C129_readers hs
    generalize known.filter (fun e => decide (e.1 ≠ c!"DIPINS")) = l at hin h
    generalize sources = r at h ⊢
    induction h with
    | nil => cases hin
    | cons hes _ ih =>
      rcases List.mem_cons.1 hin with rfl | hin
      · exact ⟨_, List.mem_cons_self, hes.1.symm, hes.2.1.symm, hes.2.2⟩
      · obtain ⟨s, hs, h⟩ := ih hin
        exact ⟨s, List.mem_cons_of_mem _ hs, h⟩

/-- C129: no two segments are generated from the same type. -/
theorem C129_types : (sources.map fun s => s.type).Nodup ∧ (sources.map fun s => (s.id, s.version)).Nodup := by
  constructor <;> decide +kernel

/-! ## Concrete cases -/

/-- A `sort.Sort`, a registered segment and bytes: what the generated code makes of a balance. -/
example : ∃ fs, extractFields (fun l => l.mergeSort fun a b => decide (a.line ≤ b.line)) accountBalanceFile
      c!"AccountBalanceResponseSegmentV5" = .ok fs ∧
    (generatedCode readElement fs b!"HISAL:5:5:3+1234::280:10000000+Giro+EUR+C:1,5:EUR:20260102+++2,:EUR'").map' asBalance =
      .ok (.balance ⟨⟨c!"HISAL", 5, 5, some 3⟩, some ⟨c!"1234", c!"", 280, c!"10000000"⟩, some c!"Giro", some c!"EUR",
        some ⟨⟨⟨false, 1, [53]⟩, c!"EUR"⟩, ⟨2026, 1, 2, 0, 0, 0, 0⟩, none⟩, none, none,
        some ⟨⟨false, 2, []⟩, c!"EUR"⟩, none, none, none, none, none⟩) := by
  obtain ⟨fs, h1, h2⟩ := faithful_HISAL5 _ mergeSort_sorts
  exact ⟨fs, h1, (h2 _).symm.trans (by decide +kernel)⟩

/-- The index has a reader for balances. -/
example : (decoders c!"HISAL" 5).isSome ∧ (decoders c!"HISAL" 9).isSome = false := by decide +kernel

end Verif.Generator

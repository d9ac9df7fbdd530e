import Verif.Generator.Command
import Mathlib.Data.List.Perm.Basic

/-
C135: what the command unmarshaler does to the files.
-/

namespace Verif.Generator.Command

open GoLib

variable {φ ψ : Type}

/-! ## Names -/

theorem newFileName_go (base : Bytes) : newFileName (base ++ b!".go") = base ++ b!"_unmarshaler.go" := by
  unfold newFileName trimSuffix
  rw [if_pos (by rw [List.isSuffixOf_iff_suffix]; exact ⟨base, rfl⟩)]
  simp

theorem newFileName_ne (name : Bytes) : newFileName name ≠ name := by
  unfold newFileName trimSuffix
  split
  · rename_i h
    rw [List.isSuffixOf_iff_suffix] at h
    obtain ⟨base, rfl⟩ := h
    intro e
    have := congrArg List.length e
    simp at this
  · intro e
    have := congrArg List.length e
    simp at this

/-- C135: the file that is written belongs to the source file: it is never the source file itself, and for Go files
`x.go` it is `x_unmarshaler.go`, so that no two of them write the same file. -/
theorem C135_names (name : Bytes) (base base' : Bytes) :
    newFileName name ≠ name ∧ newFileName (base ++ b!".go") = base ++ b!"_unmarshaler.go" ∧
    (newFileName (base ++ b!".go") = newFileName (base' ++ b!".go") → base = base') := by
  refine ⟨newFileName_ne name, newFileName_go base, fun h => ?_⟩
  rw [newFileName_go, newFileName_go] at h
  exact List.append_cancel_right h

example : newFileName b!"segment/tan.go" = b!"segment/tan_unmarshaler.go" := by decide

/-- Without the suffix the names are not told apart. -/
example : newFileName b!"tan" = newFileName b!"tan.go" := by decide

/-! ## One run -/

/-- C135: the command changes no file but the one it writes; the source file is left alone in particular. -/
theorem C135_others (t : Tools φ ψ) (flags : Option Flags) (filename pkg : Bytes) (fs : Files) (n : Bytes)
    (hn : n ≠ newFileName filename) : (main t flags filename pkg fs).2 n = fs n := by
  unfold main
  split
  · rfl
  · split
    · rfl
    · simp only
      split
      · rfl
      · rfl
      · split
        · simp [Files.write, hn]
        · rfl

/-- C135: if the command says that it failed, it has not changed any file. -/
theorem C135_failure (t : Tools φ ψ) (flags : Option Flags) (filename pkg : Bytes) (fs : Files) (k : Nat) (hk : k ≠ 0)
    (h : (main t flags filename pkg fs).1 = .code k) : (main t flags filename pkg fs).2 = fs := by
  unfold main at *
  split
  · rfl
  · rename_i fl
    simp only at h ⊢
    split
    · rfl
    · rename_i h1
      rw [if_neg h1] at h
      split
      · rfl
      · rfl
      · rename_i g hg
        rw [hg] at h
        simp only at h
        split
        · rename_i hc
          rw [if_pos hc] at h
          simp only at h
          split at h
          · cases h
          · injection h with h; exact absurd h.symm hk
        · rfl

/-- What the generator that goes with the flags makes of the file. -/
def Generates (t : Tools φ ψ) (fl : Flags) (filename pkg : Bytes) (fs : Files) (g : Bytes) : Prop :=
  (fl.versions = [] ∧ t.single fl pkg (t.parse (fs filename)) = .ok g) ∨
  (fl.versions ≠ [] ∧ t.versioned fl pkg (t.parse (fs filename)) = .ok g)

/-- C135: exactly when the command says that it succeeded, and what it has written then: a segment is named, the
generator - the one for several versions exactly if versions are given - gave a text, and the file could be
created; its contents are what was printed of that text. -/
theorem C135_success (t : Tools φ ψ) (flags : Option Flags) (filename pkg : Bytes) (fs fs' : Files) :
    main t flags filename pkg fs = (.code 0, fs') ↔
      ∃ fl g, flags = some fl ∧ fl.segment ≠ [] ∧ Generates t fl filename pkg fs g ∧ t.canCreate (newFileName filename) = true ∧
        (t.print (t.reparse g)).2 ≠ .panic ∧ fs' = fs.write (newFileName filename) (t.print (t.reparse g)).1 := by
  have hgen : ∀ fl g, (if fl.versions.length ≠ 0 then t.versioned fl pkg (t.parse (fs filename))
      else t.single fl pkg (t.parse (fs filename))) = .ok g ↔ Generates t fl filename pkg fs g := by
    intro fl g
    unfold Generates
    by_cases hv : fl.versions = []
    · simp [hv]
    · rw [if_pos (by simpa using hv)]
      simp [hv]
  constructor
  · intro h
    unfold main at h
    split at h
    · simp at h
    · rename_i fl
      simp only at h
      split at h
      · simp at h
      · rename_i h1
        split at h
        · simp at h
        · simp at h
        · rename_i g hg
          split at h
          · rename_i hc
            simp only [Prod.mk.injEq] at h
            obtain ⟨h2, h3⟩ := h
            refine ⟨fl, g, rfl, h1, (hgen fl g).1 hg, hc, ?_, h3.symm⟩
            intro hp
            rw [hp] at h2
            simp at h2
          · simp at h
  · rintro ⟨fl, g, rfl, h1, h2, h3, h4, rfl⟩
    have hg := (hgen fl g).2 h2
    unfold main
    simp only [h1, if_false, hg, h3, if_true, Prod.mk.injEq, and_true]

/-! ## Success without a file -/

namespace Sample

/-- Tools of a generator whose text does not parse, so that nothing can be printed. -/
def broken : Tools Unit (Option Bytes) where
  parse _ := ()
  single _ _ _ := .ok b!"func ("
  versioned _ _ _ := .ok b!"package segment"
  reparse g := if g = b!"func (" then none else some g
  print a := match a with
    | none => ([], .err)
    | some g => (g, .ok ())
  canCreate _ := true

/-- A package with a reader that was generated before. -/
def before : Files := fun n => if n = b!"tan.go" ∨ n = b!"tan_unmarshaler.go" then some b!"package segment" else none

end Sample

/-- C135: but success says nothing about the file: if the generated text does not parse, the reader that was there
is gone, the file is empty, and the command still says that it succeeded. -/
theorem C135_destroyed : ∃ (t : Tools Unit (Option Bytes)) (fl : Flags) (filename pkg : Bytes) (fs : Files),
    fs (newFileName filename) = some b!"package segment" ∧ (main t (some fl) filename pkg fs).1 = .code 0 ∧
    (main t (some fl) filename pkg fs).2 (newFileName filename) = some [] :=
  ⟨Sample.broken, ⟨b!"TanResponseSegment", b!"Segment", []⟩, b!"tan.go", b!"segment", Sample.before, by decide, by decide, by decide⟩

/-! ## go generate -/

/-- The command of a line says success when it runs on these files. -/
def Succeeds (t : Tools φ ψ) (fs : Files) (d : Directive) : Prop := (main t d.flags d.filename d.packageName fs).1 = .code 0

/-- Lines that are independent: each in a Go file of its own, and none in a file that another one writes. -/
def Independent (ds : List Directive) : Prop :=
  (ds.map (·.filename)).Nodup ∧ (∀ d ∈ ds, ∃ base, d.filename = base ++ b!".go") ∧
  ∀ d ∈ ds, ∀ e ∈ ds, newFileName d.filename ≠ e.filename

/-- The command looks at no file but its source file. -/
theorem main_congr (t : Tools φ ψ) (flags : Option Flags) (filename pkg : Bytes) {fs gs : Files} (h : fs filename = gs filename) :
    (main t flags filename pkg fs).1 = (main t flags filename pkg gs).1 ∧
    ((main t flags filename pkg fs).1 = .code 0 →
      (main t flags filename pkg fs).2 (newFileName filename) = (main t flags filename pkg gs).2 (newFileName filename)) := by
  unfold main
  rw [h]
  split
  · simp
  · split
    · simp
    · simp only
      split
      · simp
      · simp
      · split
        · simp [Files.write]
        · simp

/-- C135: if every line of the package would succeed alone, then `go generate` succeeds, and it leaves in every
generated file what its line alone makes of the sources, and all other files as they were. -/
theorem C135_generate (t : Tools φ ψ) (ds : List Directive) : ∀ (fs : Files), Independent ds → (∀ d ∈ ds, Succeeds t fs d) →
    (goGenerate t ds fs).1 = .code 0 ∧
    (∀ d ∈ ds, (goGenerate t ds fs).2 (newFileName d.filename) =
      (main t d.flags d.filename d.packageName fs).2 (newFileName d.filename)) ∧
    ∀ n, (∀ d ∈ ds, n ≠ newFileName d.filename) → (goGenerate t ds fs).2 n = fs n := by
  induction ds with
  | nil => intro fs _ _; exact ⟨rfl, by simp, fun _ _ => rfl⟩
  | cons d ds ih =>
    intro fs hi hs
    obtain ⟨hn, hg, hx⟩ := hi
    simp only [List.map_cons, List.nodup_cons, List.mem_map, not_exists, not_and] at hn
    have hd : (main t d.flags d.filename d.packageName fs).1 = .code 0 := hs d (by simp)
    have others := C135_others t d.flags d.filename d.packageName fs
    have same : ∀ e ∈ ds, (main t d.flags d.filename d.packageName fs).2 e.filename = fs e.filename := fun e he =>
      others _ fun h => hx d (by simp) e (by simp [he]) h.symm
    have hne : ∀ e ∈ ds, newFileName e.filename ≠ newFileName d.filename := by
      intro e he h
      obtain ⟨b, hb⟩ := hg e (by simp [he])
      obtain ⟨c, hc⟩ := hg d (by simp)
      rw [hb, hc] at h
      have := (C135_names [] b c).2.2 h
      exact hn.1 e he (by rw [hb, hc, this])
    obtain ⟨i1, i2, i3⟩ := ih (main t d.flags d.filename d.packageName fs).2
      ⟨hn.2, fun e he => hg e (by simp [he]), fun e he e' he' => hx e (by simp [he]) e' (by simp [he'])⟩
      (fun e he => by
        unfold Succeeds
        rw [(main_congr t e.flags e.filename e.packageName (same e he)).1]
        exact hs e (by simp [he]))
    have step : goGenerate t (d :: ds) fs = goGenerate t ds (main t d.flags d.filename d.packageName fs).2 := by
      rw [goGenerate, if_pos hd]
    rw [step]
    refine ⟨i1, ?_, ?_⟩
    · intro e he
      rcases List.mem_cons.1 he with rfl | he
      · exact i3 _ fun e' he' h => hne e' he' h.symm
      · rw [i2 e he]
        have := main_congr t e.flags e.filename e.packageName (same e he)
        exact this.2 (this.1.trans (hs e (by simp [he])))
    · intro n hn'
      rw [i3 n fun e he => hn' e (by simp [he]), others n (hn' d (by simp))]

/-- C135: so the order of the lines does not matter. -/
theorem C135_order (t : Tools φ ψ) {ds es : List Directive} (h : ds.Perm es) (fs : Files) (hi : Independent ds)
    (hs : ∀ d ∈ ds, Succeeds t fs d) : goGenerate t ds fs = goGenerate t es fs := by
  have hi' : Independent es :=
    ⟨(h.map _).nodup_iff.1 hi.1, fun d hd => hi.2.1 d (h.mem_iff.2 hd),
     fun d hd e he => hi.2.2 d (h.mem_iff.2 hd) e (h.mem_iff.2 he)⟩
  obtain ⟨a1, a2, a3⟩ := C135_generate t ds fs hi hs
  obtain ⟨b1, b2, b3⟩ := C135_generate t es fs hi' fun d hd => hs d (h.mem_iff.2 hd)
  refine Prod.ext (a1.trans b1.symm) (funext fun n => ?_)
  by_cases hn : ∃ d ∈ ds, n = newFileName d.filename
  · obtain ⟨d, hd, rfl⟩ := hn
    rw [a2 d hd, b2 d (h.mem_iff.1 hd)]
  · rw [a3 n fun d hd hx => hn ⟨d, hd, hx⟩, b3 n fun d hd hx => hn ⟨d, h.mem_iff.2 hd, hx⟩]

namespace Sample

/-- Two lines of the package segment. -/
def lines : List Directive :=
  [⟨some ⟨b!"TanResponseSegment", b!"TanResponse", [⟨b!"TanResponseSegmentV1", 1, b!"Segment"⟩]⟩, b!"tan.go", b!"segment"⟩,
   ⟨some ⟨b!"SynchronisationResponseSegment", b!"Segment", [⟨b!"SynchronisationResponseSegmentV3", 3, b!"Segment"⟩]⟩, b!"sync.go", b!"segment"⟩]

theorem lines_independent : Independent lines := by
  refine ⟨by decide, ?_, by decide⟩
  intro d hd
  simp only [lines, List.mem_cons, List.not_mem_nil, or_false] at hd
  rcases hd with rfl | rfl
  · exact ⟨b!"tan", rfl⟩
  · exact ⟨b!"sync", rfl⟩

end Sample

example : (∀ d ∈ Sample.lines, Succeeds Sample.broken Sample.before d) ∧
    (goGenerate Sample.broken Sample.lines.reverse Sample.before).2 b!"sync_unmarshaler.go" = some b!"package segment" ∧
    (goGenerate Sample.broken Sample.lines.reverse Sample.before).2 b!"tan.go" = some b!"package segment" := by
  refine ⟨?_, by decide, by decide⟩
  intro d hd
  simp only [Sample.lines, List.mem_cons, List.not_mem_nil, or_false] at hd
  rcases hd with rfl | rfl <;> (unfold Succeeds; decide)

example : main Sample.broken none b!"tan.go" b!"segment" Sample.before = (.code 2, Sample.before) ∧
    (main Sample.broken (some ⟨[], b!"Segment", []⟩) b!"tan.go" b!"segment" Sample.before).1 = .code 1 := ⟨rfl, by decide⟩

namespace Sample

/-- The names, without `.go`, of the source files in /repo/segment with a line `//go:generate`; each has one. -/
def sources : List Bytes :=
  [b!"account_balance", b!"account_information", b!"account_transaction", b!"bank_announcement", b!"basic_account_information",
   b!"common_bank_parameter_data", b!"communication_access", b!"encrypted_data", b!"encryption_header", b!"message_end",
   b!"message_header", b!"pin_bpd", b!"signature_end", b!"signature_header", b!"status_protocol",
   b!"supported_compression_method", b!"supported_security_method", b!"sync", b!"tan", b!"tan_bpd",
   b!"user_parameter_data"]

end Sample

/-- The lines of the package segment are independent, whatever their flags. -/
theorem C135_segment (ds : List Directive) (h : ds.map (·.filename) = Sample.sources.map (· ++ b!".go")) : Independent ds := by
  have mem : ∀ d ∈ ds, ∃ base ∈ Sample.sources, d.filename = base ++ b!".go" := by
    intro d hd
    have : d.filename ∈ Sample.sources.map (· ++ b!".go") := by rw [← h]; exact List.mem_map_of_mem hd
    obtain ⟨b, hb, he⟩ := List.mem_map.1 this
    exact ⟨b, hb, he.symm⟩
  refine ⟨by rw [h]; decide +kernel, fun d hd => (mem d hd).imp fun _ hb => hb.2, fun d hd e he => ?_⟩
  obtain ⟨b, hb, h1⟩ := mem d hd
  obtain ⟨c, hc, h2⟩ := mem e he
  rw [h1, h2]
  have : ∀ b ∈ Sample.sources, ∀ c ∈ Sample.sources, newFileName (b ++ b!".go") ≠ c ++ b!".go" := by decide +kernel
  exact this b hb c hc

example : Independent (Sample.sources.map fun n => ⟨none, n ++ b!".go", b!"segment"⟩) := C135_segment _ (by simp)

end Verif.Generator.Command

import Mathlib.Data.List.Sort
import Verif.Bank.BalanceProps
import Verif.Bank.WireLemmas
import Verif.Bank.WrapperProps
import Verif.Dialog.Props
import Verif.Generator.Model

/-
C120: the code generator. What it generates for a segment reads back what `elements()` writes.
-/

namespace Verif.Generator

open GoLib Element Element.Spec Segment Message Bank

/-! ## Specification -/

/-- What is known about `sort.Sort` with the order of the lines: the same fields, by line. Fields on the same
line may change places. -/
def SortsByLine (sort : List Fld → List Fld) : Prop :=
  ∀ l, (sort l).Perm l ∧ (sort l).Pairwise fun a b => a.line ≤ b.line

/-- The struct declares the field as pointer to `t`, as first name of a line. -/
def Declares (ds : List Decl) (name t : Str) : Prop := ∃ d ∈ ds, d.names.head? = some name ∧ d.pointerTo = some t

/-- The struct declares no field twice. -/
def Once (ds : List Decl) : Prop := ∀ d ∈ ds, ∀ e ∈ ds, d.names.head? = e.names.head? → d.names ≠ [] → d = e

/-- The file has the struct `seg` and for it one method `elements`, which returns the fields `names` in this
order, each on its own line. -/
structure Lists (file : File) (seg : Str) (ds : List Decl) (names : List Str) : Prop where
  type : file.types.lookup seg = some ds
  once : Once ds
  method : ∃ lines : List Nat, lines.length = names.length ∧ lines.Pairwise (· < ·) ∧
    file.methods.filter (fun m => m.name == c!"elements" && m.receiver == some seg) =
      [⟨c!"elements", some seg, .literal ((names.zip lines).map fun p => .field p.1 p.2)⟩]

/-! ## Finding the fields -/

theorem fieldType_ok {name : Str} {r : Option Str} : ∀ {ds : List Decl} {acc : Option Str},
    fieldType name ds acc = .ok r → r = acc ∨ ∃ t, r = some t ∧ Declares ds name t := by
  intro ds
  induction ds with
  | nil => intro acc h; simp only [fieldType, Outcome.ok.injEq] at h; exact Or.inl h.symm
  | cons d ds ih =>
    intro acc h
    have up : ∀ {t}, Declares ds name t → Declares (d :: ds) name t := fun ⟨e, h1, h2⟩ => ⟨e, List.mem_cons_of_mem _ h1, h2⟩
    unfold fieldType at h
    split at h
    · rcases ih h with h | ⟨t, h, h'⟩
      · exact Or.inl h
      · exact Or.inr ⟨t, h, up h'⟩
    · rename_i x xs hx
      split at h
      · rcases ih h with h | ⟨t, h, h'⟩
        · exact Or.inl h
        · exact Or.inr ⟨t, h, up h'⟩
      · rename_i hn
        split at h
        · simp at h
        · rename_i t ht
          right
          rcases ih h with h | ⟨t', h, h'⟩
          · exact ⟨t, h, d, by simp, by simp at hn; simp [hx, hn], ht⟩
          · exact ⟨t', h, up h'⟩

theorem fieldType_of_all {name t : Str} : ∀ {ds : List Decl} {acc : Option Str},
    (∀ d ∈ ds, d.names.head? = some name → d.pointerTo = some t) →
    (acc = some t ∨ ∃ d ∈ ds, d.names.head? = some name) → fieldType name ds acc = .ok (some t) := by
  intro ds
  induction ds with
  | nil => intro acc _ h; simpa [fieldType] using h
  | cons d ds ih =>
    intro acc h h2
    have h' : ∀ e ∈ ds, e.names.head? = some name → e.pointerTo = some t := fun e he => h e (List.mem_cons_of_mem _ he)
    have skip : d.names.head? ≠ some name → (acc = some t ∨ ∃ d ∈ ds, d.names.head? = some name) := by
      intro hd
      rcases h2 with h2 | ⟨e, he, h3⟩
      · exact Or.inl h2
      · rcases List.mem_cons.1 he with rfl | he
        · exact absurd h3 hd
        · exact Or.inr ⟨e, he, h3⟩
    unfold fieldType
    split
    · rename_i hx
      exact ih h' (skip (by simp [hx]))
    · rename_i x xs hx
      split
      · rename_i hn
        exact ih h' (skip (by simpa [hx] using hn))
      · rename_i hn
        have : d.pointerTo = some t := h d (by simp) (by simp at hn; simp [hx, hn])
        rw [this]
        exact ih h' (Or.inl rfl)

theorem fieldType_iff {ds : List Decl} (ho : Once ds) {name t : Str} :
    fieldType name ds none = .ok (some t) ↔ Declares ds name t := by
  constructor
  · intro h
    rcases fieldType_ok h with h | ⟨t', h, h'⟩
    · simp at h
    · simp only [Option.some.injEq] at h; subst h; exact h'
  · rintro ⟨d, hd, h1, h2⟩
    refine fieldType_of_all (fun e he h3 => ?_) (Or.inr ⟨d, hd, h1⟩)
    have : d = e := ho d hd e he (h1.trans h3.symm) (by intro h; simp [h] at h1)
    rw [← this]; exact h2

/-- The fields found are the ones listed, with their types and lines. -/
theorem eltFields_ok {ds : List Decl} (ho : Once ds) : ∀ {ps : List (Str × Nat)} {fs : List Fld},
    eltFields ds (ps.map fun p => .field p.1 p.2) = .ok fs ↔
      List.Forall₂ (fun p f => f.name = p.1 ∧ f.line = p.2 ∧ Declares ds p.1 f.typ) ps fs := by
  intro ps
  induction ps with
  | nil => intro fs; simp [eltFields, eq_comm]
  | cons p ps ih =>
    intro fs
    rw [List.map_cons, eltFields, Dialog.bind_eq_ok, List.forall₂_cons_left_iff]
    constructor
    · rintro ⟨t, h1, h2⟩
      cases t with
      | none => simp at h2
      | some t =>
        obtain ⟨r, h3, rfl⟩ := (Dialog.map_eq_ok _ _ _).1 h2
        exact ⟨_, r, ⟨rfl, rfl, (fieldType_iff ho).1 h1⟩, ih.1 h3, rfl⟩
    · rintro ⟨f, r, ⟨h1, h2, h3⟩, h4, rfl⟩
      refine ⟨some f.typ, (fieldType_iff ho).2 h3, ?_⟩
      refine (Dialog.map_eq_ok _ _ _).2 ⟨r, ih.2 h4, ?_⟩
      rw [← h1, ← h2]

theorem fieldType_no_panic (name : Str) : ∀ (ds : List Decl) (acc : Option Str), fieldType name ds acc ≠ .panic := by
  intro ds
  induction ds with
  | nil => intro acc; simp [fieldType]
  | cons d ds ih =>
    intro acc
    unfold fieldType
    split
    · exact ih _
    · split
      · exact ih _
      · split
        · simp
        · exact ih _

theorem eltFields_no_panic (ds : List Decl) : ∀ es : List Elt, eltFields ds es ≠ .panic := by
  intro es
  induction es with
  | nil => simp [eltFields]
  | cons e es ih =>
    cases e with
    | other => simp [eltFields]
    | field n l =>
      rw [eltFields]
      have h1 := fieldType_no_panic n ds none
      cases h : fieldType n ds none with
      | err => simp [Outcome.bind]
      | panic => exact absurd h h1
      | ok t =>
        cases t with
        | none => simp [Outcome.bind]
        | some t =>
          simp only [Outcome.bind]
          cases h' : eltFields ds es with
          | err => simp [Outcome.map']
          | panic => exact absurd h' ih
          | ok fs => simp [Outcome.map']

theorem visit_filter (seg : Str) (ds : List Decl) : ∀ ms : List Method,
    visit seg ds ms = visit seg ds (ms.filter (isElements seg)) := by
  intro ms
  induction ms with
  | nil => rfl
  | cons m ms ih =>
    by_cases h : isElements seg m = true
    · rw [List.filter_cons_of_pos h, visit, visit, if_pos h, if_pos h, ih]
    · rw [List.filter_cons_of_neg h, visit, if_neg h, ih]

theorem sort_id {sort : List Fld → List Fld} (hs : SortsByLine sort) {fs : List Fld}
    (h : fs.Pairwise fun a b => a.line < b.line) : sort fs = fs := by
  refine List.Perm.eq_of_pairwise (le := fun a b : Fld => a.line ≤ b.line) ?_ (hs fs).2 (h.imp Nat.le_of_lt) (hs fs).1
  intro a b ha hb h1 h2
  have ha' : a ∈ fs := (hs fs).1.mem_iff.1 ha
  have hn : (fs.map Fld.line).Nodup := by
    rw [List.Nodup, List.pairwise_map]
    exact h.imp fun h => Nat.ne_of_lt h
  exact List.inj_on_of_nodup_map hn ha' hb (Nat.le_antisymm h1 h2)

/-- What the generator finds in a file that lists the fields one per line. -/
theorem extract_iff {sort : List Fld → List Fld} (hs : SortsByLine sort) {file : File} {seg : Str} {ds : List Decl}
    {names : List Str} (hl : Lists file seg ds names) :
    ∃ ps : List (Str × Nat), ps.map Prod.fst = names ∧ extractFields sort file seg ≠ .panic ∧
      ∀ fs, extractFields sort file seg = .ok fs ↔
        List.Forall₂ (fun p f => f.name = p.1 ∧ f.line = p.2 ∧ Declares ds p.1 f.typ) ps fs := by
  obtain ⟨lines, h1, h2, h3⟩ := hl.method
  refine ⟨names.zip lines, List.map_fst_zip (by omega), ?_⟩
  have hv : visit seg ds file.methods = eltFields ds ((names.zip lines).map fun p => .field p.1 p.2) := by
    rw [visit_filter]
    show visit seg ds (file.methods.filter fun m => m.name == c!"elements" && m.receiver == some seg) = _
    rw [h3, visit, if_pos (by simp [isElements])]
    simp only [visit]
    cases eltFields ds ((names.zip lines).map fun p => .field p.1 p.2) <;> simp [Outcome.bind, Outcome.map']
  have hsort : ∀ fs, eltFields ds ((names.zip lines).map fun p => .field p.1 p.2) = .ok fs → sort fs = fs := by
    intro fs h
    have := (eltFields_ok hl.once).1 h
    refine sort_id hs ?_
    have hln : fs.map Fld.line = lines := by
      have h5 : List.Forall₂ (fun p f => f.line = p.2) (names.zip lines) fs := this.imp fun _ _ h => h.2.1
      have h6 : (names.zip lines).map Prod.snd = fs.map Fld.line := by
        clear hv h1 h2 h3 h this
        generalize names.zip lines = l at h5
        induction h5 with
        | nil => rfl
        | cons a _ ih => simp [a, ih]
      rw [← h6, List.map_snd_zip (by omega)]
    rw [← hln, List.pairwise_map] at h2
    exact h2
  unfold extractFields
  rw [hl.type]
  simp only [hv]
  have hp := eltFields_no_panic ds ((names.zip lines).map fun p => .field p.1 p.2)
  constructor
  · cases h : eltFields ds ((names.zip lines).map fun p => .field p.1 p.2) with
    | err => simp [Outcome.map']
    | panic => exact absurd h hp
    | ok fs => simp [Outcome.map']
  · intro fs
    rw [Dialog.map_eq_ok, ← eltFields_ok hl.once]
    constructor
    · rintro ⟨r, h, rfl⟩
      rw [hsort r h]; exact h
    · intro h
      exact ⟨fs, h, hsort fs h⟩

/-! ## Reading -/

theorem readField_eq {V : Type} (dec : Str → Bytes → Outcome V) (es : List Bytes) (n idx : Nat) (f : Fld) :
    readField dec es n idx f = if n = idx + 1 then lastField es (idx + 1) (dec f.typ) else field es (idx + 1) (dec f.typ) := by
  unfold readField lastField field
  cases h : es[idx + 1]? with
  | none => simp
  | some b =>
    have : es.length + 1 > idx + 1 := by have := (List.getElem?_eq_some_iff.1 h).1; omega
    simp only [this, if_true]
    split <;> split <;> rfl

theorem readFields_ok {V : Type} {dec : Str → Bytes → Outcome V} {es : List Bytes} {n : Nat} {vals : Str → Option V} :
    ∀ {fs : List Fld} {idx : Nat} {st : Str → Option V}, (fs.map Fld.name).Nodup →
      (∀ i f, fs[i]? = some f → readField dec es n (idx + i) f = .ok (vals f.name)) →
      (∀ f ∈ fs, st f.name = none) →
      readFields dec es n idx fs st = .ok fun x => if x ∈ fs.map Fld.name then vals x else st x := by
  intro fs
  induction fs with
  | nil => intro idx st _ _ _; simp [readFields]
  | cons f fs ih =>
    intro idx st hn hr hst
    rw [List.map_cons, List.nodup_cons] at hn
    have h0 := hr 0 f rfl
    rw [Nat.add_zero] at h0
    rw [readFields, h0]
    simp only [Outcome.bind]
    rw [ih hn.2]
    · congr 1
      funext x
      by_cases hx : x = f.name
      · subst hx
        rw [if_neg hn.1, if_pos (by simp)]
        cases hv : vals f.name with
        | none => exact hst f (by simp)
        | some v => simp
      · have : (x ∈ List.map Fld.name (f :: fs)) ↔ x ∈ List.map Fld.name fs := by simp [hx]
        simp only [this]
        cases vals f.name with
        | none => rfl
        | some v => simp [hx]
    · intro i g hg
      have := hr (i + 1) g (by simpa using hg)
      rw [← this]; congr 1; omega
    · intro g hg
      have hne : g.name ≠ f.name := by
        intro h
        exact hn.1 (h ▸ List.mem_map_of_mem hg)
      cases vals f.name with
      | none => exact hst g (by simp [hg])
      | some v => simp [hne, hst g (by simp [hg])]

/-! ## Theorems -/

/-- C120: the generator finds the fields in the order in which `elements()` writes them, with the types the
struct declares. -/
theorem C120_found {sort : List Fld → List Fld} (hs : SortsByLine sort) {file : File} {seg : Str} {ds : List Decl}
    {names : List Str} (hl : Lists file seg ds names) {fs : List Fld} (h : extractFields sort file seg = .ok fs) :
    fs.map Fld.name = names ∧ ∀ f ∈ fs, Declares ds f.name f.typ := by
  obtain ⟨ps, h1, _, h3⟩ := extract_iff hs hl
  have h4 := (h3 fs).1 h
  subst h1
  clear h h3 hl
  induction h4 with
  | nil => simp
  | cons a _ ih => simp only [List.map_cons, a.1, ih.1, List.mem_cons]; refine ⟨trivial, ?_⟩; rintro f (rfl | hf); exacts [a.1 ▸ a.2.2, ih.2 f hf]

/-- C120: it refuses exactly the segments one of whose listed fields is not declared as pointer at the
beginning of a line of the struct. -/
theorem C120_refused {sort : List Fld → List Fld} (hs : SortsByLine sort) {file : File} {seg : Str} {ds : List Decl}
    {names : List Str} (hl : Lists file seg ds names) :
    extractFields sort file seg = .err ↔ ∃ n ∈ names, ∀ t, ¬ Declares ds n t := by
  obtain ⟨ps, h1, h2, h3⟩ := extract_iff hs hl
  subst h1
  constructor
  · intro h
    by_contra hc
    push_neg at hc
    have : ∃ fs, List.Forall₂ (fun (p : Str × Nat) (f : Fld) => f.name = p.1 ∧ f.line = p.2 ∧ Declares ds p.1 f.typ) ps fs := by
      clear h h2 h3 hl
      induction ps with
      | nil => exact ⟨[], .nil⟩
      | cons p ps ih =>
        obtain ⟨t, ht⟩ := hc p.1 (by simp)
        obtain ⟨fs, hf⟩ := ih fun n hn => hc n (by simp [hn])
        exact ⟨⟨p.1, t, p.2⟩ :: fs, .cons ⟨rfl, rfl, ht⟩ hf⟩
    obtain ⟨fs, hf⟩ := this
    rw [(h3 fs).2 hf] at h
    simp at h
  · rintro ⟨n, hn, hd⟩
    cases h : extractFields sort file seg with
    | err => rfl
    | panic => exact absurd h h2
    | ok fs =>
      exfalso
      have h4 := (h3 fs).1 h
      clear h h2 h3 hl
      induction h4 with
      | nil => simp at hn
      | @cons p f _ _ a _ ih =>
        rcases List.mem_cons.1 hn with rfl | hn
        · exact hd _ a.2.2
        · exact ih hn

theorem eltFields_other {ds : List Decl} : ∀ {es : List Elt}, Elt.other ∈ es → eltFields ds es = .err := by
  intro es
  induction es with
  | nil => intro h; simp at h
  | cons e es ih =>
    intro h
    cases e with
    | other => rfl
    | field n l =>
      have h' : Elt.other ∈ es := by simpa using h
      rw [eltFields, ih h']
      have h1 := fieldType_no_panic n ds none
      cases hf : fieldType n ds none with
      | err => rfl
      | panic => exact absurd hf h1
      | ok t => cases t <;> rfl

/-- C120: it also refuses everything else in the list than fields of a variable. -/
theorem C120_unsupported {sort : List Fld → List Fld} {file : File} {seg : Str} {m : Method} {es : List Elt}
    (hm : m ∈ file.methods) (hn : m.name = c!"elements") (hr : m.receiver = some seg) (hb : m.body = .literal es)
    (he : Elt.other ∈ es) : extractFields sort file seg = .err := by
  unfold extractFields
  cases file.types.lookup seg with
  | none => rfl
  | some ds =>
    have hv : visit seg ds file.methods = .err := by
      revert hm
      generalize file.methods = ms
      induction ms with
      | nil => intro hm; simp at hm
      | cons x ms ih =>
        intro hm
        have np : ∀ ms, visit seg ds ms ≠ .panic := by
          intro ms
          induction ms with
          | nil => simp [visit]
          | cons y ms ih =>
            rw [visit]
            split
            · split
              · exact ih
              · rename_i es' _
                have := eltFields_no_panic ds es'
                cases hx : eltFields ds es' with
                | err => simp [Outcome.bind]
                | panic => exact absurd hx this
                | ok fs =>
                  simp only [Outcome.bind]
                  cases hy : visit seg ds ms with
                  | err => simp [Outcome.map']
                  | panic => exact absurd hy ih
                  | ok r => simp [Outcome.map']
            · exact ih
        rcases List.mem_cons.1 hm with rfl | hm
        · rw [visit, if_pos (by simp [isElements, hn, hr]), hb]
          simp only
          rw [eltFields_other he]
          rfl
        · rw [visit, ih hm]
          split
          · split
            · rfl
            · rename_i es' _
              have := eltFields_no_panic ds es'
              cases hx : eltFields ds es' with
              | err => rfl
              | panic => exact absurd hx this
              | ok fs => rfl
          · rfl
    simp only [hv, Outcome.map']

/-- A case: a value computed on the spot. -/
example : ∃ file : File, ∃ m ∈ file.methods, m.name = c!"elements" ∧ m.receiver = some c!"S" ∧
    m.body = .literal [.field c!"A" 7, .other] :=
  ⟨⟨[(c!"S", [⟨[c!"A"], some c!"T"⟩])], [⟨c!"elements", some c!"S", .literal [.field c!"A" 7, .other]⟩]⟩, _, List.mem_singleton.2 rfl, rfl, rfl, rfl⟩

/-- C120: what the generated code reads is what was written. A segment written with the elements that
`elements()` returns, in this order, is read back with every field holding its value and all other fields
nil, whatever the number and the types of the fields, if each type reads what it writes. -/
theorem C120_roundtrip {sort : List Fld → List Fld} (hs : SortsByLine sort) {file : File} {seg : Str} {ds : List Decl}
    {names : List Str} (hl : Lists file seg ds names) (hn : names.Nodup) {fs : List Fld}
    (hg : extractFields sort file seg = .ok fs) {V : Type} {dec : Str → Bytes → Outcome V} {s : Seg} {m : Bytes}
    (hw : Written s m) {es : Str → Option DE} (he : s.elements = names.map es) {vals : Str → Option V}
    (hc : ∀ n ∈ names, ∀ t, Declares ds n t → Carries (es n) (dec t) (vals n)) (h0 : ∀ n, n ∉ names → vals n = none) :
    generatedCode dec fs m = .ok (s.header, vals) := by
  obtain ⟨hf, ht⟩ := C120_found hs hl hg
  subst hf
  obtain ⟨hb, ps, out, h1, h2, h3, h4⟩ := generated_written hw
  have hlen : ps.length = fs.length := by
    have := congrArg List.length h1
    simpa [he] using this.symm
  unfold generatedCode
  rw [h4, readFields_ok (vals := vals) hn ?_ (fun _ _ => rfl)]
  · simp only [Outcome.map', Outcome.ok.injEq, Prod.mk.injEq, true_and]
    funext x
    split
    · rfl
    · rename_i hx; exact (h0 x hx).symm
  · intro i f hi
    rw [Nat.zero_add, readField_eq]
    have hilt : i < fs.length := (List.getElem?_eq_some_iff.1 hi).1
    have hmem : f ∈ fs := List.mem_of_getElem? hi
    obtain ⟨p, hp⟩ : ∃ p, ps[i]? = some p := ⟨ps[i]'(by omega), by simp⟩
    have hmp : DE.marshalOpt (es f.name) = .ok p := by
      have := congrArg (fun l => l[i]?) h1
      simpa [he, hi, hp] using this
    have key : field (hb :: ps) (i + 1) (dec f.typ) = .ok (vals f.name) := by
      have := hc f.name (List.mem_map_of_mem hmem) f.typ (ht f hmem) p hmp (h3 p (List.mem_of_getElem? hp))
      rw [← this]
      simp [field, hp]
    split
    · rename_i hlast
      rw [lastField_drop h2 (by simp; omega), key]
    · rw [field_drop h2, key]

/-- C120: an `elements()` that is not a single `return` of a list is passed over in silence: the generated
code reads the header and leaves every field nil. -/
theorem C120_silent {sort : List Fld → List Fld} (hs : SortsByLine sort) {file : File} {seg : Str} {ds : List Decl}
    (ht : file.types.lookup seg = some ds)
    (hm : ∀ m ∈ file.methods, m.name = c!"elements" → m.receiver = some seg → m.body = .otherwise) :
    ∃ fs, extractFields sort file seg = .ok fs ∧ ∀ (V : Type) (dec : Str → Bytes → Outcome V) (b : Bytes) r,
      generatedCode dec fs b = .ok r → r.2 = fun _ => none := by
  have hv : visit seg ds file.methods = .ok [] := by
    revert hm
    generalize file.methods = ms
    induction ms with
    | nil => intro _; rfl
    | cons m ms ih =>
      intro hm
      have ih := ih fun m' h => hm m' (by simp [h])
      rw [visit]
      split
      · rename_i h
        simp only [isElements, Bool.and_eq_true, beq_iff_eq] at h
        rw [hm m (by simp) h.1 h.2]
        exact ih
      · exact ih
  have hnil : sort [] = [] := List.perm_nil.1 (hs []).1
  refine ⟨[], ?_, ?_⟩
  · unfold extractFields
    rw [ht]
    simp [hv, Outcome.map', hnil]
  · intro V dec b r h
    unfold generatedCode generated at h
    obtain ⟨es, _, h⟩ := Dialog.bind_ok h
    cases es with
    | nil => cases h
    | cons e es =>
      obtain ⟨hd, _, h⟩ := Dialog.bind_ok h
      simp only [readFields, Outcome.map', Outcome.ok.injEq] at h
      rw [← h]

/-- C120: the wrapper generated for a segment with several versions does what the code of the version named
by the header does, and fails for versions it was not generated for. -/
theorem C120_versions {sort : List Fld → List Fld} {file : File} {vs : List (Int × Str)} {cases : List (Int × List Fld)}
    (hg : versionFields sort file vs = .ok cases) {V : Type} (dec : Str → Bytes → Outcome V) {b : Bytes} {h : Header}
    (hh : extractSegmentHeader b = .ok h) :
    (∀ name, vs.lookup h.version = some name →
      ∃ fs, extractFields sort file name = .ok fs ∧ versionedCode dec cases b = generatedCode dec fs b) ∧
    (vs.lookup h.version = none → versionedCode dec cases b = .err) := by
  have hv : versionedCode dec cases b = match cases.find? fun c => c.1 == h.version with
      | some c => generatedCode dec c.2 b
      | none => .err := by
    unfold extractSegmentHeader at hh
    unfold versionedCode
    obtain ⟨es, h1, h2⟩ := Dialog.bind_ok hh
    rw [h1]
    cases es with
    | nil => cases h2
    | cons hb r =>
      simp only at h2
      simp only [Outcome.bind]
      rw [h2]
      rfl
  rw [hv]
  clear hv hh
  induction vs generalizing cases with
  | nil =>
    simp only [versionFields, Outcome.ok.injEq] at hg
    subst hg
    simp
  | cons p vs ih =>
    obtain ⟨v, name⟩ := p
    rw [versionFields] at hg
    obtain ⟨fs, h1, h2⟩ := Dialog.bind_ok hg
    obtain ⟨r, h3, rfl⟩ := Dialog.map_ok h2
    by_cases he : v = h.version
    · subst he
      simp only [List.lookup_cons, beq_self_eq_true, List.find?_cons_of_pos, Option.some.injEq]
      refine ⟨?_, by simp⟩
      rintro n rfl
      exact ⟨fs, h1, rfl⟩
    · have e1 : (h.version == v) = false := by simpa using fun h => he h.symm
      have e2 : ¬ ((v == h.version) = true) := by simpa using he
      rw [List.lookup_cons, e1, List.find?_cons_of_neg (p := fun c : Int × List Fld => c.1 == h.version) (a := (v, fs)) e2]
      exact ih h3

/-! ## Concrete cases -/

/-- The segment HISYN version 3: /repo/segment/sync.go:103-121. -/
def syncFile : File where
  types := [(c!"SynchronisationResponseSegmentV3",
    [⟨[], none⟩, ⟨[c!"ClientSystemIDResponse"], some c!"element.IdentificationDataElement"⟩,
     ⟨[c!"MessageNumberResponse"], some c!"element.NumberDataElement"⟩,
     ⟨[c!"SignatureIDResponse"], some c!"element.NumberDataElement"⟩])]
  methods := [⟨c!"Version", some c!"SynchronisationResponseSegmentV3", .otherwise⟩,
    ⟨c!"elements", some c!"SynchronisationResponseSegmentV3",
      .literal [.field c!"ClientSystemIDResponse" 117, .field c!"MessageNumberResponse" 118,
        .field c!"SignatureIDResponse" 119]⟩]

/-- The two types of elements in it. -/
def syncDec (t : Str) (b : Bytes) : Outcome (Str ⊕ Int) :=
  if t = c!"element.IdentificationDataElement" then (text b).map' .inl else (unmarshalNumber b).map' .inr

/-- The fields by name as a segment. -/
def syncOf (r : Header × (Str → Option (Str ⊕ Int))) : SyncSeg :=
  ⟨r.1, (r.2 c!"ClientSystemIDResponse").bind Sum.getLeft?, (r.2 c!"MessageNumberResponse").bind Sum.getRight?,
    (r.2 c!"SignatureIDResponse").bind Sum.getRight?⟩

theorem sync_lists : Lists syncFile c!"SynchronisationResponseSegmentV3"
    [⟨[], none⟩, ⟨[c!"ClientSystemIDResponse"], some c!"element.IdentificationDataElement"⟩,
     ⟨[c!"MessageNumberResponse"], some c!"element.NumberDataElement"⟩,
     ⟨[c!"SignatureIDResponse"], some c!"element.NumberDataElement"⟩]
    [c!"ClientSystemIDResponse", c!"MessageNumberResponse", c!"SignatureIDResponse"] :=
  ⟨by decide +kernel, by unfold Once; decide +kernel, [117, 118, 119], rfl, by decide, by decide +kernel⟩

theorem field_map {α β : Type} (es : List Bytes) (i : Nat) (f : Bytes → Outcome α) (g : α → β) :
    field es i (fun b => (f b).map' g) = (field es i f).map' (Option.map g) := by
  unfold field
  cases es[i]? with
  | none => rfl
  | some b =>
    simp only
    split
    · rfl
    · cases f b <;> rfl

theorem lastField_map {α β : Type} (es : List Bytes) (i : Nat) (f : Bytes → Outcome α) (g : α → β) :
    lastField es i (fun b => (f b).map' g) = (lastField es i f).map' (Option.map g) := by
  unfold lastField
  cases es[i]? with
  | none => rfl
  | some b =>
    simp only
    split
    · rfl
    · cases f (join 43 (es.drop i)) <;> rfl

/-- C120: the reader of synchronisation responses checked in at segment/sync_unmarshaler.go does what the
generator makes of segment/sync.go, on all bytes. -/
theorem C120_sync {sort : List Fld → List Fld} (hs : SortsByLine sort) :
    ∃ fs, extractFields sort syncFile c!"SynchronisationResponseSegmentV3" = .ok fs ∧
      ∀ b, unmarshalSync b = (generatedCode syncDec fs b).map' syncOf := by
  obtain ⟨fs, hfs⟩ : ∃ fs, fs = ([⟨c!"ClientSystemIDResponse", c!"element.IdentificationDataElement", 117⟩,
    ⟨c!"MessageNumberResponse", c!"element.NumberDataElement", 118⟩,
    ⟨c!"SignatureIDResponse", c!"element.NumberDataElement", 119⟩] : List Fld) := ⟨_, rfl⟩
  refine ⟨fs, ?_, ?_⟩
  · unfold extractFields
    rw [sync_lists.type]
    have : visit c!"SynchronisationResponseSegmentV3"
      [⟨[], none⟩, ⟨[c!"ClientSystemIDResponse"], some c!"element.IdentificationDataElement"⟩,
       ⟨[c!"MessageNumberResponse"], some c!"element.NumberDataElement"⟩,
       ⟨[c!"SignatureIDResponse"], some c!"element.NumberDataElement"⟩] syncFile.methods = .ok fs := by
      subst hfs; decide +kernel
    simp only [this, Outcome.map']
    rw [sort_id hs (by subst hfs; decide)]
  · intro b
    subst hfs
    unfold unmarshalSync generatedCode generated
    cases Segment.extractElements b with
    | err => rfl
    | panic => rfl
    | ok es =>
      cases es with
      | nil => rfl
      | cons hb r =>
        simp only [Outcome.bind]
        cases unmarshalHeader hb with
        | err => rfl
        | panic => rfl
        | ok hd =>
          have d1 : syncDec c!"element.IdentificationDataElement" = fun b => (text b).map' .inl := by
            funext b; simp [syncDec]
          have d2 : syncDec c!"element.NumberDataElement" = fun b => (unmarshalNumber b).map' .inr := by
            funext b; exact if_neg (by decide)
          simp only [readFields, readField_eq, List.length_cons, List.length_nil, d1, d2, field_map, lastField_map]
          simp only [show ((3 : Nat) = 0 + 1) = False by simp, show ((3 : Nat) = 0 + 1 + 1) = False by simp,
            show ((3 : Nat) = 0 + 1 + 1 + 1) = True by simp, if_true, if_false]
          cases field (hb :: r) (0 + 1) text with
          | err => rfl
          | panic => rfl
          | ok a =>
            cases field (hb :: r) (0 + 1 + 1) unmarshalNumber with
            | err => rfl
            | panic => rfl
            | ok c =>
              cases lastField (hb :: r) (0 + 1 + 1 + 1) unmarshalNumber with
              | err => rfl
              | panic => rfl
              | ok d => cases a <;> cases c <;> cases d <;> rfl

/-- `sort.Sort` exists: merge sort is one way. -/
theorem mergeSort_sorts : SortsByLine fun l => l.mergeSort fun a b => decide (a.line ≤ b.line) := by
  intro l
  refine ⟨List.mergeSort_perm _ _, ?_⟩
  have := List.pairwise_mergeSort (le := fun a b : Fld => decide (a.line ≤ b.line)) (l := l)
    (by intro a b c; simp; omega) (by intro a b; simp; omega)
  exact this.imp fun h => by simpa using h

/-- Fields on the same line in the opposite order. -/
theorem reversing_sorts : SortsByLine fun l => l.reverse.mergeSort fun a b => decide (a.line ≤ b.line) := by
  intro l
  exact ⟨(mergeSort_sorts l.reverse).1.trans (List.reverse_perm l), (mergeSort_sorts l.reverse).2⟩

/-- C120: if `elements()` lists fields on one line, nothing fixes their order: with a `sort.Sort` that
exchanges them the generated code stores the elements in each other's fields. -/
theorem C120_same_line : ∃ sort, SortsByLine sort ∧ ∃ file fs,
    file.methods = [⟨c!"elements", some c!"S", .literal [.field c!"A" 7, .field c!"B" 7]⟩] ∧
    extractFields sort file c!"S" = .ok fs ∧
    ∃ st, generatedCode (fun _ b => text b) fs b!"HIXYZ:1:1+a+b'" = .ok (⟨c!"HIXYZ", 1, 1, none⟩, st) ∧
      st c!"A" = some c!"b" ∧ st c!"B" = some c!"a" := by
  refine ⟨_, reversing_sorts, ⟨[(c!"S", [⟨[c!"A"], some c!"T"⟩, ⟨[c!"B"], some c!"T"⟩])], _⟩,
    [⟨c!"B", c!"T", 7⟩, ⟨c!"A", c!"T", 7⟩], rfl, ?_, ?_⟩
  · unfold extractFields
    have : visit c!"S" [⟨[c!"A"], some c!"T"⟩, ⟨[c!"B"], some c!"T"⟩]
        [⟨c!"elements", some c!"S", .literal [.field c!"A" 7, .field c!"B" 7]⟩] =
        .ok [⟨c!"A", c!"T", 7⟩, ⟨c!"B", c!"T", 7⟩] := by decide +kernel
    simp only [List.lookup_cons, beq_self_eq_true, this, Outcome.map']
    exact congrArg _ (List.mergeSort_of_pairwise (by decide))
  · refine ⟨fun x => if x = c!"A" then some c!"b" else if x = c!"B" then some c!"a" else none, ?_, by decide, by decide⟩
    have he : Segment.extractElements b!"HIXYZ:1:1+a+b'" = .ok [b!"HIXYZ:1:1", b!"a", b!"b"] := by decide +kernel
    have hh : unmarshalHeader b!"HIXYZ:1:1" = .ok ⟨c!"HIXYZ", 1, 1, none⟩ := by decide +kernel
    unfold generatedCode generated
    rw [he]
    simp only [Outcome.bind]
    rw [hh]
    rfl

/-- A case of C120_roundtrip: a written synchronisation response without message number. -/
example : ∃ m fs st, extractFields (fun l => l.mergeSort fun a b => decide (a.line ≤ b.line)) syncFile
      c!"SynchronisationResponseSegmentV3" = .ok fs ∧
    m = b!"HISYN:5:3:3+LOGIN42++7'" ∧ generatedCode syncDec fs m = .ok (⟨c!"HISYN", 5, 3, some 3⟩, st) ∧
    st c!"ClientSystemIDResponse" = some (.inl c!"LOGIN42") ∧ st c!"MessageNumberResponse" = none ∧
    st c!"SignatureIDResponse" = some (.inr 7) := by
  obtain ⟨fs, hf, _⟩ := C120_sync mergeSort_sorts
  have hp : ∀ e, some e ∈ [some (DE.identification c!"LOGIN42" 30), none, some (DE.number 7 16)] → Plain e := by
    rw [← plainAll_iff]
    simp only [PlainAll, PlainOpt, Plain, and_true, true_and]
    exact plainText_of (by decide) (by decide) (by decide) (by decide)
  have hw : Written ⟨⟨c!"HISYN", 5, 3, some 3⟩, [some (DE.identification c!"LOGIN42" 30), none, some (DE.number 7 16)]⟩
      b!"HISYN:5:3:3+LOGIN42++7'" := by
    refine written_of_plain rfl (by decide) (by decide) (by unfold IsInt; decide) (by unfold IsInt; decide) ?_ hp (by decide)
    rintro r hr; cases hr; unfold IsInt; decide
  refine ⟨_, fs, fun x => if x = c!"ClientSystemIDResponse" then some (.inl c!"LOGIN42") else
      if x = c!"SignatureIDResponse" then some (.inr 7) else none, hf, rfl, ?_, by decide, by decide, by decide⟩
  refine C120_roundtrip mergeSort_sorts sync_lists (by decide) hf hw
    (es := fun x => if x = c!"ClientSystemIDResponse" then some (DE.identification c!"LOGIN42" 30) else
      if x = c!"SignatureIDResponse" then some (DE.number 7 16) else none) rfl ?_ ?_
  · rintro n hn t ⟨d, hd, h1, h2⟩
    simp only [List.mem_cons, List.not_mem_nil, or_false] at hd
    rcases hd with rfl | rfl | rfl | rfl
    · simp at h1
    · simp only [List.head?_cons, Option.some.injEq] at h1 h2
      subst h1 h2
      refine carries_some (e := DE.identification c!"LOGIN42" 30) fun p hp _ => ?_
      cases hp
      exact ⟨by decide, by decide⟩
    · simp only [List.head?_cons, Option.some.injEq] at h1 h2
      subst h1 h2
      exact carries_none _
    · simp only [List.head?_cons, Option.some.injEq] at h1 h2
      subst h1 h2
      refine carries_some (e := DE.number 7 16) fun p hp _ => ?_
      cases hp
      exact ⟨by decide, by decide⟩
  · intro n hn
    simp only [List.mem_cons, List.not_mem_nil, or_false, not_or] at hn
    simp [hn]

/-- A case of C120_refused: two names in one line of the struct. -/
example : Lists ⟨[(c!"S", [⟨[c!"A", c!"B"], some c!"T"⟩])],
      [⟨c!"elements", some c!"S", .literal [.field c!"A" 7, .field c!"B" 8]⟩]⟩ c!"S"
      [⟨[c!"A", c!"B"], some c!"T"⟩] [c!"A", c!"B"] ∧
    ∀ t, ¬ Declares [⟨[c!"A", c!"B"], some c!"T"⟩] c!"B" t := by
  refine ⟨⟨rfl, by unfold Once; decide +kernel, [7, 8], rfl, by decide, by decide +kernel⟩, ?_⟩
  rintro t ⟨d, hd, h1, _⟩
  simp only [List.mem_cons, List.not_mem_nil, or_false] at hd
  subst hd
  revert h1
  decide

/-- A case of C120_silent: a segment that builds its list step by step. -/
example : ∃ file : File, file.types.lookup c!"S" = some [⟨[c!"A"], some c!"T"⟩] ∧
    ∀ m ∈ file.methods, m.name = c!"elements" → m.receiver = some c!"S" → m.body = .otherwise :=
  ⟨⟨[(c!"S", [⟨[c!"A"], some c!"T"⟩])], [⟨c!"elements", some c!"S", .otherwise⟩]⟩, rfl, by simp⟩

/-- A case of C120_versions. -/
example : ∃ cases, versionFields (fun l => l.mergeSort fun a b => decide (a.line ≤ b.line)) syncFile
      [(3, c!"SynchronisationResponseSegmentV3")] = .ok cases ∧
    extractSegmentHeader b!"HISYN:5:3:3+LOGIN42++7'" = .ok ⟨c!"HISYN", 5, 3, some 3⟩ := by
  obtain ⟨fs, hf, _⟩ := C120_sync mergeSort_sorts
  exact ⟨[(3, fs)], by simp only [versionFields, hf, Outcome.bind, Outcome.map'], by decide +kernel⟩

end Verif.Generator

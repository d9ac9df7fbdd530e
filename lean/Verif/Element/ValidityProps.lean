import Verif.Element.Validity
import Verif.Element.GroupsProps

/-
C112: what `IsValid` and `Length` say about data elements and groups of them.
-/

namespace Verif.Element

open GoLib Charset

/-! ## Specification -/

namespace Spec

/-- `d` is the element itself or lies somewhere inside it. -/
inductive Within : DE → DE → Prop
  | self (e : DE) : Within e e
  | group {d c : DE} {n : Nat} {es : List (Option DE)} : some c ∈ es → Within d c → Within d (.group n es)
  | array {d c : DE} {min max : Nat} {es : List (Option DE)} :
      some c ∈ es → Within d c → Within d (.array min max es)

/-- Neither line break nor blank nor ampersand. -/
def Unbroken (s : Str) : Prop := ∀ c ∈ s, c ≠ '\n' ∧ c ≠ '\r' ∧ c ≠ ' ' ∧ c ≠ '&'

/-- A number of at most `max` characters in decimal notation, the minus sign included. -/
def Narrow (v max : Int) : Prop := 0 < max ∧ -10 ^ (max.toNat - 1) < v ∧ v < 10 ^ max.toNat

/-- Number of decimal digits of a byte. -/
def digitsOf (b : Byte) : Nat := if b.toNat < 10 then 1 else if b.toNat < 100 then 2 else 3

/-- Length of a byte slice printed as Go prints it, like `[1 2 3]`. -/
def printedLength : Bytes → Nat
  | [] => 2
  | b :: r => 2 + digitsOf b + (r.map fun c => digitsOf c + 1).sum

/-- What a single element must satisfy; of a group only the number of its elements. -/
def Fits (p : Printer) : DE → Prop
  | .alnum v max => Unbroken v ∧ (strLen v : Int) ≤ max
  | .identification v max => Unbroken v ∧ (strLen v : Int) ≤ max
  | .text v max => (strLen v : Int) ≤ max
  | .digit v max => Narrow v max
  | .number v max => Narrow v max
  | .virtualDate v max => Narrow v max
  | .countryCode v max => Narrow v max
  | .float v max => (strLen (p.float v) : Int) ≤ max
  | .value v max => (strLen (p.float v) : Int) ≤ max
  | .dtaus v max => (printedLength v : Int) ≤ max
  | .binary v max => (printedLength v : Int) ≤ max
  | .boolean _ => False
  | .code v max set => (∃ m ∈ set, v ≤ m) ∧ Unbroken v ∧ (strLen v : Int) ≤ max
  | .date t => t ≠ ⟨1, 1, 1, 0, 0, 0, 0⟩
  | .time t => t ≠ ⟨1, 1, 1, 0, 0, 0, 0⟩
  | .currency v _ => strLen v = 3
  | .group n es => es.length = n
  | .array min max es => min ≤ es.length ∧ es.length ≤ max

/-- The length a single element has: that of its value as Go prints it.  The length of a number
is the least maximum it is within. -/
def Width (p : Printer) : DE → Nat → Prop
  | .alnum v _, w | .identification v _, w | .text v _, w | .code v _ _, w | .currency v _, w => w = strLen v
  | .digit v _, w | .number v _, w | .virtualDate v _, w | .countryCode v _, w => ∀ max : Int, Narrow v max ↔ w ≤ max
  | .float v _, w | .value v _, w => w = strLen (p.float v)
  | .dtaus v _, w | .binary v _, w => w = printedLength v
  | .boolean true, w => w = strLen c!"true"
  | .boolean false, w => w = strLen c!"false"
  | .date t, w | .time t, w => w = strLen (p.time t)
  | .group _ _, _ | .array _ _ _, _ => True

/-- The set of a code is in order, as `NewCode` leaves it and decoding an element makes it
(empty). -/
def Ordered : DE → Prop
  | .code _ _ set => set.Pairwise fun a b => a ≤ b
  | _ => True

mutual
/-- The single elements of an element, from left to right. -/
def leaves : DE → List DE
  | .group _ es => leavesAll es
  | .array _ _ es => leavesAll es
  | e => [e]

/-- The single elements of some elements; missing ones have none. -/
def leavesAll : List (Option DE) → List DE
  | [] => []
  | none :: r => leavesAll r
  | some e :: r => leaves e ++ leavesAll r
end

end Spec

open Spec

/-! ## Lemmas -/

theorem digitsOf_eq (b : Byte) : (natDec b.toNat).length = digitsOf b := by
  have h := b.toNat_lt
  unfold digitsOf
  split
  · rw [natDec_eq, if_pos (by assumption)]; rfl
  · split
    · rw [natDec_eq, if_neg (by assumption), natDec_eq, if_pos (by omega)]; rfl
    · rw [natDec_eq, if_neg (by assumption), natDec_eq, if_neg (by omega), natDec_eq, if_pos (by omega)]; rfl

theorem printedLength_eq (d : Bytes) : (bytesText d).length = printedLength d := by
  cases d with
  | nil => rfl
  | cons b r =>
    have key : ∀ (b : Byte) (r : Bytes), (join 32 ((b :: r).map fun b => natDec b.toNat)).length =
        digitsOf b + (r.map fun c => digitsOf c + 1).sum := by
      intro b r
      induction r generalizing b with
      | nil => simp [join, digitsOf_eq]
      | cons c r ih =>
        rw [List.map_cons, join_cons _ _ (by simp)]
        simp only [List.length_cons, List.length_append, ih c, digitsOf_eq, List.sum_cons]
        simp only [List.map_cons, List.sum_cons]
        omega
    unfold bytesText printedLength
    simp only [List.length_cons, List.length_append, List.length_nil, key]
    omega

theorem natDec_length_iff (n k : Nat) (hk : 1 ≤ k) : (natDec n).length ≤ k ↔ n < 10 ^ k := by
  refine ⟨?_, natDec_length_le hk⟩
  intro h
  induction k generalizing n with
  | zero => omega
  | succ k ih =>
    rw [natDec_eq] at h
    split at h
    · calc n < 10 := by assumption
        _ = 10 ^ 1 := rfl
        _ ≤ 10 ^ (k + 1) := Nat.pow_le_pow_right (by decide) (by omega)
    · rename_i hn
      simp only [List.length_append, List.length_cons, List.length_nil] at h
      have hp := natDec_pos (n / 10)
      have := ih (n / 10) (by omega) (by omega)
      rw [Nat.pow_succ]
      omega

theorem narrow_iff (v max : Int) : intIsValid v max = true ↔ Narrow v max := by
  unfold intIsValid Narrow
  rw [decide_eq_true_iff]
  by_cases hm : 0 < max
  · obtain ⟨k, rfl⟩ : ∃ k : Nat, max = (k + 1 : Nat) := ⟨max.toNat - 1, by omega⟩
    simp only [Int.toNat_natCast, Nat.add_sub_cancel]
    unfold itoa
    have e1 : ((10 : Int) ^ (k + 1)) = ((10 ^ (k + 1) : Nat) : Int) := by push_cast; rfl
    have e2 : ((10 : Int) ^ k) = ((10 ^ k : Nat) : Int) := by push_cast; rfl
    rw [e1, e2]
    have hpos : 0 < 10 ^ k := Nat.pow_pos (by decide)
    split
    · rename_i hv
      simp only [List.length_cons]
      by_cases hk : k = 0
      · subst hk
        have hp := natDec_pos v.natAbs
        simp only [Nat.pow_zero, Nat.zero_add]
        omega
      · have := natDec_length_iff v.natAbs k (by omega)
        omega
    · rename_i hv
      have := natDec_length_iff v.natAbs (k + 1) (by omega)
      omega
  · have : 0 < (itoa v).length := by
      unfold itoa
      split
      · simp
      · exact natDec_pos _
    omega

theorem alnum_iff (v : Str) (max : Int) : alnumIsValid v max = true ↔ Unbroken v ∧ (strLen v : Int) ≤ max := by
  unfold alnumIsValid Unbroken
  by_cases h : (v.any fun c => c == '\n' || c == ' ' || c == '&' || c == '\r') = true
  · rw [if_pos h]
    constructor
    · intro h'; exact absurd h' (by simp)
    · rintro ⟨h', -⟩
      obtain ⟨c, hc, h2⟩ := List.any_eq_true.1 h
      obtain ⟨k1, k2, k3, k4⟩ := h' c hc
      simp [k1, k2, k3, k4] at h2
  · rw [if_neg h, decide_eq_true_iff]
    constructor
    · intro hl
      refine ⟨fun c hc => ?_, hl⟩
      have h2 : ¬ (c == '\n' || c == ' ' || c == '&' || c == '\r') = true := fun h3 => h (List.any_eq_true.2 ⟨c, hc, h3⟩)
      simp at h2
      tauto
    · exact fun h => h.2

theorem code_iff (v : Str) (max : Int) (set : List Str) (hs : set.Pairwise fun a b => a ≤ b) :
    codeIsValid v max set = true ↔ (∃ m ∈ set, v ≤ m) ∧ Unbroken v ∧ (strLen v : Int) ≤ max := by
  have h1 := searchStrings_lt (a := set) (hs.imp fun h => (strLe_iff _ _).2 h) v
  simp only [strLe_iff] at h1
  unfold codeIsValid
  rw [← h1, ← alnum_iff]
  by_cases hl : searchStrings set v < set.length
  · rw [if_neg (by omega)]; simp [hl]
  · rw [if_pos (by omega)]; simp [hl]

theorem time_iff (t : Time.Civil) : timeIsValid t = true ↔ t ≠ ⟨1, 1, 1, 0, 0, 0, 0⟩ := by
  unfold timeIsValid Time.isZero
  simp

theorem validAll_iff (p : Printer) (es : List (Option DE)) :
    DE.validAll p es = true ↔ ∀ e, some e ∈ es → e.isValid p = true := by
  induction es with
  | nil => simp [DE.validAll]
  | cons o r ih =>
    cases o with
    | none => simp [DE.validAll, DE.validOpt, ih]
    | some e => simp [DE.validAll, DE.validOpt, ih]

theorem within_group {d : DE} {n : Nat} {es : List (Option DE)} :
    Within d (.group n es) ↔ d = .group n es ∨ ∃ c, some c ∈ es ∧ Within d c := by
  constructor
  · intro h
    cases h with
    | self => exact Or.inl rfl
    | group h1 h2 => exact Or.inr ⟨_, h1, h2⟩
  · rintro (rfl | ⟨c, h1, h2⟩)
    · exact .self _
    · exact .group h1 h2

theorem within_array {d : DE} {min max : Nat} {es : List (Option DE)} :
    Within d (.array min max es) ↔ d = .array min max es ∨ ∃ c, some c ∈ es ∧ Within d c := by
  constructor
  · intro h
    cases h with
    | self => exact Or.inl rfl
    | array h1 h2 => exact Or.inr ⟨_, h1, h2⟩
  · rintro (rfl | ⟨c, h1, h2⟩)
    · exact .self _
    · exact .array h1 h2

/-- A single element has no other inside. -/
theorem within_leaf {d e : DE} (hg : ∀ n es, e ≠ .group n es) (ha : ∀ a b es, e ≠ .array a b es) :
    Within d e ↔ d = e := by
  constructor
  · intro h
    cases h with
    | self => rfl
    | group => exact absurd rfl (hg _ _)
    | array => exact absurd rfl (ha _ _ _)
  · rintro rfl
    exact .self _

mutual
theorem isValid_iff (p : Printer) : (e : DE) → (∀ d, Within d e → Ordered d) →
    (e.isValid p = true ↔ ∀ d, Within d e → Fits p d)
  | .alnum v max, _ => by simp [within_leaf, DE.isValid, Fits, alnum_iff]
  | .text v max, _ => by simp [within_leaf, DE.isValid, Fits]
  | .digit v max, _ => by simp [within_leaf, DE.isValid, Fits, narrow_iff]
  | .number v max, _ => by simp [within_leaf, DE.isValid, Fits, narrow_iff]
  | .float v max, _ => by simp [within_leaf, DE.isValid, Fits]
  | .dtaus v max, _ => by simp [within_leaf, DE.isValid, Fits, binaryIsValid, printedLength_eq]
  | .binary v max, _ => by simp [within_leaf, DE.isValid, Fits, binaryIsValid, printedLength_eq]
  | .boolean v, _ => by simp [within_leaf, DE.isValid, Fits, C11_bool_never_valid]
  | .code v max set, h => by
    have := h (.code v max set) (.self _)
    simp only [Ordered] at this
    simp only [DE.isValid, code_iff v max set this]
    simp [within_leaf, Fits]
  | .date t, _ => by simp only [DE.isValid, time_iff]; simp [within_leaf, Fits]
  | .virtualDate v max, _ => by simp [within_leaf, DE.isValid, Fits, narrow_iff]
  | .time t, _ => by simp only [DE.isValid, time_iff]; simp [within_leaf, Fits]
  | .identification v max, _ => by simp [within_leaf, DE.isValid, Fits, alnum_iff]
  | .countryCode v max, _ => by simp [within_leaf, DE.isValid, Fits, narrow_iff]
  | .currency v max, _ => by simp [within_leaf, DE.isValid, Fits]
  | .value v max, _ => by simp [within_leaf, DE.isValid, Fits]
  | .group n es, h => by
    have ih := validAll_within p es fun c hc d hd => h d (.group hc hd)
    unfold DE.isValid
    by_cases hl : n = es.length
    · rw [if_neg (by simpa using hl), ih]
      constructor
      · intro hv d hd
        rcases within_group.1 hd with rfl | ⟨c, hc, hd⟩
        · exact hl.symm
        · exact hv c hc d hd
      · exact fun hv c hc d hd => hv d (.group hc hd)
    · rw [if_pos hl]
      refine ⟨fun h => absurd h (by simp), fun hv => ?_⟩
      have := hv _ (.self _)
      exact absurd this.symm hl
  | .array min max es, h => by
    have ih := validAll_within p es fun c hc d hd => h d (.array hc hd)
    unfold DE.isValid
    by_cases hl : es.length < min ∨ max < es.length
    · rw [if_pos hl]
      refine ⟨fun h => absurd h (by simp), fun hv => ?_⟩
      have := hv _ (.self _)
      simp only [Fits] at this
      omega
    · rw [if_neg hl, ih]
      constructor
      · intro hv d hd
        rcases within_array.1 hd with rfl | ⟨c, hc, hd⟩
        · simp only [Fits]; omega
        · exact hv c hc d hd
      · exact fun hv c hc d hd => hv d (.array hc hd)

theorem validAll_within (p : Printer) : (es : List (Option DE)) →
    (∀ c, some c ∈ es → ∀ d, Within d c → Ordered d) →
    (DE.validAll p es = true ↔ ∀ c, some c ∈ es → ∀ d, Within d c → Fits p d)
  | [], _ => by simp [DE.validAll]
  | none :: r, h => by
    have ih := validAll_within p r fun c hc => h c (List.mem_cons_of_mem _ hc)
    simp [DE.validAll, DE.validOpt, ih]
  | some e :: r, h => by
    have ih := validAll_within p r fun c hc => h c (List.mem_cons_of_mem _ hc)
    have he := isValid_iff p e fun d hd => h e (by simp) d hd
    rw [DE.validAll, DE.validOpt, Bool.and_eq_true, ih, he]
    constructor
    · rintro ⟨h1, h2⟩ c hc
      rcases List.mem_cons.1 hc with hc | hc
      · cases hc; exact h1
      · exact h2 c hc
    · exact fun h' => ⟨h' e (by simp), fun c hc => h' c (List.mem_cons_of_mem _ hc)⟩
end

mutual
theorem size_leaves (p : Printer) : (e : DE) → e.size p = ((leaves e).map (DE.size p)).sum
  | .alnum _ _ => by simp [leaves]
  | .text _ _ => by simp [leaves]
  | .digit _ _ => by simp [leaves]
  | .number _ _ => by simp [leaves]
  | .float _ _ => by simp [leaves]
  | .dtaus _ _ => by simp [leaves]
  | .binary _ _ => by simp [leaves]
  | .boolean _ => by simp [leaves]
  | .code _ _ _ => by simp [leaves]
  | .date _ => by simp [leaves]
  | .virtualDate _ _ => by simp [leaves]
  | .time _ => by simp [leaves]
  | .identification _ _ => by simp [leaves]
  | .countryCode _ _ => by simp [leaves]
  | .currency _ _ => by simp [leaves]
  | .value _ _ => by simp [leaves]
  | .group _ es => by rw [DE.size, leaves, sizeAll_leaves p es]
  | .array _ _ es => by rw [DE.size, leaves, sizeAll_leaves p es]

theorem sizeAll_leaves (p : Printer) : (es : List (Option DE)) →
    DE.sizeAll p es = ((leavesAll es).map (DE.size p)).sum
  | [] => by simp [DE.sizeAll, leavesAll]
  | none :: r => by simp [DE.sizeAll, DE.sizeOpt, leavesAll, sizeAll_leaves p r]
  | some e :: r => by simp [DE.sizeAll, DE.sizeOpt, leavesAll, sizeAll_leaves p r, size_leaves p e]
end

/-! ## C112: what `IsValid` says -/

/-- Everything inside an element fits. -/
def Spec.Sound (p : Printer) (e : DE) : Prop := ∀ d, Within d e → Fits p d

/-- The codes inside an element have ordered sets. -/
def Spec.Codes (e : DE) : Prop := ∀ d, Within d e → Ordered d

/-- C112: an element is valid exactly if everything inside it fits: single elements by
themselves, groups and arrays by their numbers of elements.  Missing elements are never
objected to. -/
theorem C112_valid (p : Printer) (e : DE) (hc : Codes e) : e.isValid p = true ↔ Sound p e := isValid_iff p e hc

/-- A printer for the examples. -/
def samplePrinter : Printer := ⟨fun x => x.format.map fun b => Char.ofNat b.toNat, fun _ => c!"2020-04-01 12:30:00 +0000 UTC"⟩

/-- An account with its bank, as sent with a request. -/
def sampleConnection : InternationalConnection := ⟨c!"DE89370400440532013000", c!"COBADEFFXXX", c!"532013000", [], 280, c!"37040044"⟩

theorem sample_codes : Codes (internationalDE sampleConnection) := by
  intro d hd
  unfold internationalDE bankIdentification at hd
  simp only [within_group, List.mem_cons, Option.some.injEq, List.not_mem_nil, or_false] at hd
  rcases hd with rfl | ⟨c, hc, hd⟩
  · trivial
  · rcases hc with rfl | rfl | rfl | rfl | rfl
    · rw [within_leaf (by simp) (by simp)] at hd; subst hd; trivial
    · rw [within_leaf (by simp) (by simp)] at hd; subst hd; trivial
    · rw [within_leaf (by simp) (by simp)] at hd; subst hd; trivial
    · rw [within_leaf (by simp) (by simp)] at hd; subst hd; trivial
    · rcases within_group.1 hd with rfl | ⟨c, hc, hd⟩
      · trivial
      · simp only [List.mem_cons, Option.some.injEq, List.not_mem_nil, or_false] at hc
        rcases hc with rfl | rfl
        · rw [within_leaf (by simp) (by simp)] at hd; subst hd; trivial
        · rw [within_leaf (by simp) (by simp)] at hd; subst hd; trivial

example : Sound samplePrinter (internationalDE sampleConnection) :=
  (C112_valid _ _ sample_codes).1 (by decide +kernel)

-- a group of two that lacks its first element is valid, a group of two made for three is not
example : (DE.group 2 [none, some (.currency c!"EUR" 3)]).isValid samplePrinter = true := by decide
example : (DE.group 3 [some (.number 1 2), some (.currency c!"EUR" 3)]).isValid samplePrinter = false := by decide

/-- C112: a segment header is valid exactly if ID, position and version are there and every
element that is there is sound. -/
theorem C112_header (p : Printer) (id position version ref : Option DE)
    (hc : ∀ e ∈ [id, position, version, ref], ∀ d, e = some d → Codes d) :
    headerIsValid p id position version ref = true ↔
      id ≠ none ∧ position ≠ none ∧ version ≠ none ∧
        ∀ e ∈ [id, position, version, ref], ∀ d, e = some d → Sound p d := by
  unfold headerIsValid
  have hv : (DE.group 4 [id, position, version, ref]).isValid p = true ↔
      ∀ e ∈ [id, position, version, ref], ∀ d, e = some d → Sound p d := by
    unfold DE.isValid
    rw [if_neg (by simp), validAll_within p _ (fun c h => hc _ h c rfl)]
    constructor
    · rintro h e he d rfl; exact h d he
    · exact fun h c hc => h _ hc c rfl
  rw [← hv]
  cases id <;> cases position <;> cases version <;> simp

/-- C112: the same for a reference to a message: both elements must be there. -/
theorem C112_referencing (p : Printer) (dialogID number : Option DE)
    (hc : ∀ e ∈ [dialogID, number], ∀ d, e = some d → Codes d) :
    referencingIsValid p dialogID number = true ↔
      dialogID ≠ none ∧ number ≠ none ∧ ∀ e ∈ [dialogID, number], ∀ d, e = some d → Sound p d := by
  unfold referencingIsValid
  have hv : (DE.group 2 [dialogID, number]).isValid p = true ↔
      ∀ e ∈ [dialogID, number], ∀ d, e = some d → Sound p d := by
    unfold DE.isValid
    rw [if_neg (by simp), validAll_within p _ (fun c h => hc _ h c rfl)]
    constructor
    · rintro h e he d rfl; exact h d he
    · exact fun h c hc => h _ hc c rfl
  rw [← hv]
  cases dialogID <;> cases number <;> simp

/-- C112: the same for an acknowledgement: code and text must be there. -/
theorem C112_acknowledgement (p : Printer) (code reference text params : Option DE)
    (hc : ∀ e ∈ [code, reference, text, params], ∀ d, e = some d → Codes d) :
    acknowledgementIsValid p code reference text params = true ↔
      code ≠ none ∧ text ≠ none ∧ ∀ e ∈ [code, reference, text, params], ∀ d, e = some d → Sound p d := by
  unfold acknowledgementIsValid
  have hv : (DE.group 4 [code, reference, text, params]).isValid p = true ↔
      ∀ e ∈ [code, reference, text, params], ∀ d, e = some d → Sound p d := by
    unfold DE.isValid
    rw [if_neg (by simp), validAll_within p _ (fun c h => hc _ h c rfl)]
    constructor
    · rintro h e he d rfl; exact h d he
    · exact fun h c hc => h _ hc c rfl
  rw [← hv]
  cases code <;> cases text <;> simp

example : headerIsValid samplePrinter (some (.alnum c!"HKSAL" 6)) (some (.number 3 3)) (some (.number 6 3)) none = true ∧
    headerIsValid samplePrinter (some (.alnum c!"HKSAL" 6)) none (some (.number 6 3)) none = false := by
  constructor <;> decide
example : referencingIsValid samplePrinter (some (.identification c!"4711" 30)) (some (.number 2 4)) = true ∧
    referencingIsValid samplePrinter none (some (.number 2 4)) = false := by constructor <;> decide
example : acknowledgementIsValid samplePrinter (some (.digit 10 4)) none (some (.alnum c!"Ok" 80)) none = true ∧
    acknowledgementIsValid samplePrinter (some (.digit 10 4)) none none none = false := by constructor <;> decide

/-- C112: a header the library makes is valid exactly if its ID has at most six bytes and none
of the four characters, and position and version have at most three characters. -/
theorem C112_new_header (p : Printer) (id : Str) (position version : Int) :
    newHeaderIsValid p id position version = true ↔
      Unbroken id ∧ strLen id ≤ 6 ∧ (-100 < position ∧ position < 1000) ∧ (-100 < version ∧ version < 1000) := by
  have hn : ∀ v : Int, intIsValid v 3 = true ↔ -100 < v ∧ v < 1000 := by
    intro v
    rw [narrow_iff]
    unfold Narrow
    simp only [show Int.toNat 3 = 3 from rfl]
    norm_num
  have ha : alnumIsValid id 6 = true ↔ Unbroken id ∧ strLen id ≤ 6 := by
    rw [alnum_iff]
    constructor <;> rintro ⟨h1, h2⟩ <;> exact ⟨h1, by omega⟩
  have e : newHeaderIsValid p id position version =
      (alnumIsValid id 6 && (intIsValid position 3 && (intIsValid version 3 && true))) := by
    simp [newHeaderIsValid, headerIsValid, DE.isValid, DE.validAll, DE.validOpt]
  rw [e]
  simp only [Bool.and_eq_true, ha, hn]
  tauto

example : newHeaderIsValid samplePrinter c!"HKKAZ" 999 7 = true ∧ newHeaderIsValid samplePrinter c!"HKKAZ" 1000 7 = false := by
  constructor <;> decide

theorem validity_map_ok {α β : Type} {x : Outcome α} {f : α → β} {r : β} :
    x.map' f = .ok r ↔ ∃ a, x = .ok a ∧ f a = r := by cases x <;> simp

/-- C112: a header read from a message is valid exactly if its ID has none of the four
characters; no length is checked. -/
theorem C112_read_header (p : Printer) (b : Bytes) (v : Bool) :
    readHeaderIsValid p b = .ok v → ∃ h, Segment.unmarshalHeader b = .ok h ∧ (v = true ↔ Unbroken h.id) := by
  intro h
  obtain ⟨es, he, h⟩ := Element.bind_eq_ok.1 h
  match es, h, he with
  | i :: n :: w :: rest, h, he =>
    obtain ⟨pos, hpos, h⟩ := Element.bind_eq_ok.1 h
    obtain ⟨ver, hver, h⟩ := Element.bind_eq_ok.1 h
    obtain ⟨ref, hr, h⟩ := validity_map_ok.1 h
    have hp := C63_number_valid hpos
    have hw := C63_number_valid hver
    have hid := alnum_iff (unmarshalText i) (strLen (unmarshalText i))
    have key : ∃ k : Option Int, Segment.unmarshalRef (i :: n :: w :: rest) = .ok k ∧
        DE.validOpt p ref = true := by
      cases rest with
      | nil => simp at hr; subst hr; exact ⟨none, rfl, rfl⟩
      | cons r rest =>
        simp only at hr
        by_cases hr0 : r = []
        · rw [if_pos hr0] at hr
          cases hr
          exact ⟨none, by simp [Segment.unmarshalRef, hr0], rfl⟩
        · rw [if_neg hr0] at hr
          obtain ⟨k, hk, rfl⟩ := validity_map_ok.1 hr
          exact ⟨some k, by simp [Segment.unmarshalRef, hr0, hk], C63_number_valid hk⟩
    obtain ⟨k, hk, hv⟩ := key
    refine ⟨⟨unmarshalText i, pos, ver, k⟩, ?_, ?_⟩
    · simp [Segment.unmarshalHeader, he, hpos, hver, hk]
    · rw [← h]
      have e : headerIsValid p (some (.alnum (unmarshalText i) (strLen (unmarshalText i)))) (some (.number pos n.length))
          (some (.number ver w.length)) ref = alnumIsValid (unmarshalText i) (strLen (unmarshalText i)) := by
        simp [headerIsValid, DE.isValid, DE.validAll, DE.validOpt, hp, hw, hv] <;> rfl
      rw [e, hid]
      simp

example : readHeaderIsValid samplePrinter b!"HKSAL:3:6" = .ok true ∧
    readHeaderIsValid samplePrinter b!"HK SAL:3:6:2" = .ok false ∧ readHeaderIsValid samplePrinter b!"HKSAL:3" = .err := by
  refine ⟨?_, ?_, ?_⟩ <;> decide +kernel

/-- C112: an acknowledgement the library makes, and so every one it reads, is valid exactly if
it has ten parameters and code, reference, text and parameters fit. -/
theorem C112_new_acknowledgement (p : Printer) (code : Int) (reference text : Str) (params : List Str) :
    newAcknowledgementIsValid p code reference text params = true ↔
      (-1000 < code ∧ code < 10000) ∧ (Unbroken reference ∧ strLen reference ≤ 7) ∧ (Unbroken text ∧ strLen text ≤ 80) ∧
        params.length = 10 ∧ ∀ s ∈ params, Unbroken s ∧ strLen s ≤ 35 := by
  have hn : intIsValid code 4 = true ↔ -1000 < code ∧ code < 10000 := by
    rw [narrow_iff]
    unfold Narrow
    simp only [show Int.toNat 4 = 4 from rfl]
    norm_num
  have hp : (newParams 10 10 params).isValid p = true ↔
      params.length = 10 ∧ ∀ s ∈ params, Unbroken s ∧ strLen s ≤ 35 := by
    unfold newParams DE.isValid
    by_cases hl : params.length = 10
    · rw [if_neg (by simp [hl]), validAll_iff]
      simp only [List.mem_map, Option.some.injEq, forall_exists_index, and_imp, hl, true_and]
      constructor
      · intro h s hs
        have := h _ s hs rfl
        rw [DE.isValid, alnum_iff] at this
        exact ⟨this.1, by have := this.2; omega⟩
      · rintro h e s hs rfl
        have := h s hs
        rw [DE.isValid, alnum_iff]
        exact ⟨this.1, by have := this.2; omega⟩
    · rw [if_pos (by simp; omega)]
      simp [hl]
  have ha : ∀ (t : Str) (m : Nat), alnumIsValid t m = true ↔ Unbroken t ∧ strLen t ≤ m := by
    intro t m
    rw [alnum_iff]
    constructor <;> rintro ⟨h1, h2⟩ <;> exact ⟨h1, by omega⟩
  have e : newAcknowledgementIsValid p code reference text params =
      (intIsValid code 4 && (alnumIsValid reference (7 : Nat) && (alnumIsValid text (80 : Nat) &&
        ((newParams 10 10 params).isValid p && true)))) := by
    unfold newAcknowledgementIsValid acknowledgementIsValid
    rw [DE.isValid]
    simp [DE.validAll, DE.validOpt, DE.isValid]
  rw [e]
  simp only [Bool.and_eq_true, ha, hn, hp]
  tauto

/-- C112: so what banks usually say is not valid: a text with a blank, or any number of
parameters other than ten. -/
theorem C112_usual_acknowledgement (p : Printer) (code : Int) (reference text : Str) (params : List Str)
    (h : ' ' ∈ text ∨ params.length ≠ 10) : newAcknowledgementIsValid p code reference text params = false := by
  rw [← Bool.not_eq_true, C112_new_acknowledgement]
  rintro ⟨-, -, ⟨h1, -⟩, h2, -⟩
  rcases h with h | h
  · exact (h1 _ h).2.2.1 rfl
  · exact h h2

example : newAcknowledgementIsValid samplePrinter 10 [] c!"Nachricht entgegengenommen." [] = false :=
  C112_usual_acknowledgement _ _ _ _ _ (.inl (by decide))
example : newAcknowledgementIsValid samplePrinter 3920 [] c!"Verfahren" (List.replicate 10 c!"999") = true := by decide +kernel

/-! ## C112: lengths -/

/-- C112: the length of an element is the sum of the lengths of the single elements inside it:
separators and escapes do not count. -/
theorem C112_length (p : Printer) (e : DE) : e.size p = ((leaves e).map (DE.size p)).sum := size_leaves p e

example : (accountConnectionDE ⟨c!"1+1", c!"", 280, c!"37040044"⟩).size samplePrinter = 3 + 0 + 3 + 8 ∧
    (accountConnectionDE ⟨c!"1+1", c!"", 280, c!"37040044"⟩).marshal = .ok b!"1?+1::280:37040044" := by
  constructor <;> decide +kernel

/-- C112: the length of a single element is that of its value as printed: a boolean counts four
or five, bytes with the brackets and blanks between them. -/
theorem C112_single_length (p : Printer) (e : DE) : Width p e (e.size p) := by
  have hn : ∀ (v max : Int), Narrow v max ↔ ((itoa v).length : Int) ≤ max := by
    intro v max
    rw [← narrow_iff]
    simp [intIsValid]
  cases e with
  | boolean v => cases v <;> simp [Width, DE.size] <;> decide
  | digit v _ => exact hn v
  | number v _ => exact hn v
  | virtualDate v _ => exact hn v
  | countryCode v _ => exact hn v
  | dtaus v _ => simp [Width, DE.size, printedLength_eq]
  | binary v _ => simp [Width, DE.size, printedLength_eq]
  | group _ _ => trivial
  | array _ _ _ => trivial
  | _ => simp [Width, DE.size]

example : (DE.boolean false).size samplePrinter = 5 ∧ (DE.binary [1, 200, 3] 8).size samplePrinter = 9 ∧
    (DE.number (-17) 4).size samplePrinter = 3 := by refine ⟨?_, ?_, ?_⟩ <;> decide +kernel

/-- C112: a valid text has at most as many characters as its element allows, and on the wire
at most twice as many bytes, every escaped character taking two. -/
theorem C112_text_bound (p : Printer) (v : Str) (max : Int) (h : (DE.alnum v max).isValid p = true) :
    (v.length : Int) ≤ max ∧ ∀ b, (DE.alnum v max).marshal = .ok b → (b.length : Int) ≤ 2 * max := by
  rw [DE.isValid, alnum_iff] at h
  have hl : v.length ≤ strLen v := by
    clear h
    unfold strLen
    induction v with
    | nil => simp
    | cons c v ih =>
      have := c.utf8Size_pos
      simp only [List.length_cons, List.map_cons, List.sum_cons]
      omega
  refine ⟨by have := h.2; omega, fun b hb => ?_⟩
  rw [DE.marshal, marshalText] at hb
  have hb' : b.length = (escape v).length := by
    rcases C50_text (escape v) with ⟨-, b', e1, -, e2⟩ | ⟨-, e⟩
    · rw [e1] at hb; cases hb; exact e2
    · rw [e] at hb; cases hb
  have : (escape v).length ≤ 2 * v.length := by
    clear h hl hb hb'
    induction v with
    | nil => simp [escape]
    | cons c v ih =>
      unfold escape at ih ⊢
      rw [List.flatMap_cons, List.length_append, List.length_cons]
      have : (if special c = true then ['?', c] else [c]).length ≤ 2 := by split <;> simp
      omega
  have := h.2
  omega

/-- C112: the bound counts UTF-8 bytes, not characters: a text that needs no more bytes on
the wire than allowed may be invalid, and one that needs more may be valid. -/
theorem C112_bytes_not_characters (p : Printer) :
    ((DE.alnum c!"Müller" 6).isValid p = false ∧ (DE.alnum c!"Müller" 6).marshal = .ok [77, 252, 108, 108, 101, 114]) ∧
    ((DE.alnum c!"1+1" 3).isValid p = true ∧ (DE.alnum c!"1+1" 3).marshal = .ok b!"1?+1") := by
  refine ⟨⟨?_, by decide +kernel⟩, ?_, by decide +kernel⟩ <;> rw [DE.isValid] <;> decide +kernel

end Verif.Element

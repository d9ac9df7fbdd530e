import Verif.Element.GroupLemmas
import Verif.Element.DateLemmas

/-
Codes, decimal fractions and the wire form of leaf elements.
-/

namespace Verif.Element

open GoLib Charset Spec Verif.Token.Spec

/-! ## Codes -/

theorem charLt_iff (a b : Char) : a < b ↔ a.toNat < b.toNat := by
  rw [Char.lt_def, UInt32.lt_iff_toNat_lt]; exact Iff.rfl

theorem strLe_iff (a b : Str) : strLe a b = true ↔ a ≤ b := by
  induction a generalizing b with
  | nil => simp [strLe]
  | cons x a ih =>
    cases b with
    | nil => simp [strLe]
    | cons y b =>
      rw [strLe, List.cons_le_cons_iff, charLt_iff]
      split
      · rename_i h; simp [h]
      · split
        · rename_i h1 h2
          simp only [Bool.false_eq_true, false_iff, not_or, not_and]
          exact ⟨h1, fun he => absurd h2 (by rw [he]; omega)⟩
        · rename_i h1 h2
          have : x = y := char_ext (by omega)
          simp [this, ih]

theorem strLe_trans (a b c : Str) (h1 : strLe a b = true) (h2 : strLe b c = true) : strLe a c = true := by
  rw [strLe_iff] at *
  exact List.le_trans h1 h2

theorem strLe_total (a b : Str) : (strLe a b || strLe b a) = true := by
  rw [Bool.or_eq_true, strLe_iff, strLe_iff]
  exact List.le_total a b

theorem newCodeSet_sorted (set : List Str) : (newCodeSet set).Pairwise fun a b => strLe a b = true :=
  List.pairwise_mergeSort strLe_trans strLe_total set

theorem mem_newCodeSet (set : List Str) (m : Str) : m ∈ newCodeSet set ↔ m ∈ set := by
  simp [newCodeSet]

theorem searchStrings_lt {a : List Str} (h : a.Pairwise fun a b => strLe a b = true) (x : Str) :
    searchStrings a x < a.length ↔ ∃ y ∈ a, strLe x y = true := by
  have hm : ∀ i j, i ≤ j → j < a.length → ((a[i]?).any fun y => strLe x y) = true →
      ((a[j]?).any fun y => strLe x y) = true := by
    intro i j hij hj hi
    have hi' : i < a.length := by omega
    rw [List.getElem?_eq_getElem hi', Option.any_some] at hi
    rw [List.getElem?_eq_getElem hj, Option.any_some]
    by_cases he : i = j
    · subst he; exact hi
    · have := List.pairwise_iff_getElem.1 h i j hi' hj (by omega)
      exact strLe_trans _ _ _ hi this
  obtain ⟨h1, h2, h3, h4⟩ := searchLoop_spec (fun i => (a[i]?).any fun y => strLe x y) a.length 0 a.length
    (by omega) (by omega) hm
  unfold searchStrings search
  constructor
  · intro hlt
    have := h4 _ (Nat.le_refl _) hlt
    rw [List.getElem?_eq_getElem hlt, Option.any_some] at this
    exact ⟨_, List.getElem_mem hlt, this⟩
  · rintro ⟨y, hy, hle⟩
    by_contra hge
    obtain ⟨i, hi, rfl⟩ := List.getElem_of_mem hy
    have := h3 i (by omega) (by omega)
    rw [List.getElem?_eq_getElem hi, Option.any_some, hle] at this
    simp at this

/-! ## Decimal fractions -/

/-- Fraction digits without a trailing zero. -/
def Dec.Canonical (x : Dec) : Prop := (∀ b ∈ x.frac, Digit b) ∧ x.frac.getLast? ≠ some 48

theorem replaceFirst_skip {a b : Byte} {p : Bytes} (h : a ∉ p) (r : Bytes) :
    replaceFirst a b (p ++ r) = p ++ replaceFirst a b r := by
  induction p with
  | nil => rfl
  | cons c p ih =>
    have hc : (c == a) = false := by
      rw [beq_eq_false_iff_ne]; intro he; exact h (by simp [he])
    simp only [List.cons_append, replaceFirst, hc]
    simp [ih fun hm => h (by simp [hm])]

/-- Sign and integer part. -/
def Dec.head (x : Dec) : Bytes := (if x.neg then [45] else []) ++ natDec x.int

theorem dec_head_not {x : Dec} {c : Byte} (hc : ¬ Digit c) (h45 : c ≠ 45) : c ∉ x.head := by
  unfold Dec.head
  simp only [List.mem_append, not_or]
  refine ⟨?_, fun hm => hc ((natDec_digits _).2 c hm)⟩
  split
  · simpa using h45
  · simp

theorem floatString_eq (x : Dec) : floatString x = x.head ++ 44 :: x.frac := by
  have h46 : (46 : Byte) ∉ x.head := dec_head_not (by simp [Digit]) (by decide)
  have h44 : (44 : Byte) ∉ x.head := dec_head_not (by simp [Digit]) (by decide)
  unfold floatString Dec.format
  have e : (if x.neg = true then [45] else []) ++ natDec x.int = x.head := rfl
  rw [e, replaceFirst_skip h46]
  by_cases hf : x.frac = []
  · simp only [hf, if_true, replaceFirst, List.append_nil]
    have : x.head.contains 44 = false := by simpa using h44
    simp [h44]
  · simp [hf, replaceFirst]

theorem parseFloat_sign (neg : Bool) {ip fr : Bytes} (h1 : DigitString ip) (h2 : ∀ b ∈ fr, Digit b) :
    parseFloat ((if neg then [45] else []) ++ ip ++ 46 :: fr) = some ⟨neg, digitsVal ip, trimRight 48 fr⟩ := by
  have hspan := Token.span_digits h1.2 (c := 46) (by simp [Digit]) fr
  have hd : isDigit = Token.isDig := by
    funext b
    rw [Bool.eq_iff_iff, isDigit_iff, Token.isDig_iff]
  have hall : fr.all isDigit = true := by
    rw [List.all_eq_true]
    exact fun b hb => (isDigit_iff b).2 (h2 b hb)
  have hne : ip.isEmpty = false := by
    cases ip with
    | nil => exact absurd rfl h1.1
    | cons => rfl
  have body : ∀ s : Bytes, signOf s = (neg, ip ++ 46 :: fr) →
      parseFloat s = some ⟨neg, digitsVal ip, trimRight 48 fr⟩ := by
    intro s hs
    unfold parseFloat
    rw [hs]
    dsimp only
    rw [hd, hspan.1, hspan.2]
    rw [hd] at hall
    simp [hall, hne]
  apply body
  cases neg
  · cases ip with
    | nil => exact absurd rfl h1.1
    | cons a r =>
      have ha := h1.2 a (by simp)
      have g1 : a ≠ 45 := by rintro rfl; simp [Digit] at ha
      have g2 : a ≠ 43 := by rintro rfl; simp [Digit] at ha
      simp [signOf, g1, g2]
  · simp [signOf]

theorem unmarshalFloat_floatString {x : Dec} (h : x.Canonical) : unmarshalFloat (floatString x) = .ok x := by
  have h44 : (44 : Byte) ∉ x.head := dec_head_not (by simp [Digit]) (by decide)
  unfold unmarshalFloat
  rw [floatString_eq x, replaceFirst_skip h44]
  have : replaceFirst 44 46 (44 :: x.frac) = 46 :: x.frac := by simp [replaceFirst]
  rw [this, Dec.head, parseFloat_sign x.neg (natDec_digits _) h.1, digitsVal_natDec, trimRight_of_last h.2]
  rfl

theorem floatString_value {x : Dec} (h : x.Canonical) : Value (floatString x) := by
  rw [floatString_eq x]
  unfold Dec.head
  cases x.neg
  · exact Token.value_of_float ⟨natDec x.int, x.frac, by simp, natDec_numeric _, h.1⟩
  · have : ([45] ++ natDec x.int) ++ 44 :: x.frac = 45 :: (natDec x.int ++ 44 :: x.frac) := by simp
    simp only [if_true]
    rw [this]
    apply neg_value
    apply Token.digitString_escaped
    intro b hb
    simp only [List.mem_append, List.mem_cons] at hb
    rcases hb with hb | rfl | hb
    · exact Or.inl ((natDec_digits _).2 b hb)
    · exact Or.inr rfl
    · exact Or.inl (h.1 b hb)

/-! ## Dates on the wire -/

theorem digits_append {a b : Bytes} (ha : DigitString a) (hb : DigitString b) : DigitString (a ++ b) := by
  refine ⟨by simp [ha.1], ?_⟩
  intro x hx
  simp only [List.mem_append] at hx
  rcases hx with hx | hx
  · exact ha.2 x hx
  · exact hb.2 x hx

theorem format8_value (t : Time.Civil) : Value (Time.format8 t) := by
  unfold Time.format8 Time.formatYear
  split
  · have : DigitString (Time.pad 4 t.year.natAbs ++ Time.pad 2 t.month ++ Time.pad 2 t.day) :=
      digits_append (digits_append (pad_digits _ _) (pad_digits _ _)) (pad_digits _ _)
    rw [List.cons_append, List.cons_append]
    exact neg_value (Token.digitString_escaped fun b hb => Or.inl (this.2 b hb))
  · exact Token.value_of_digits (digits_append (digits_append (pad_digits _ _) (pad_digits _ _)) (pad_digits _ _))

theorem format6_value (t : Time.Civil) : Value (Time.format6 t) :=
  Token.value_of_digits (digits_append (digits_append (pad_digits _ _) (pad_digits _ _)) (pad_digits _ _))

/-! ## Groups -/

theorem marshalAll_ok {es : List (Option DE)} {ps : List Bytes} :
    DE.marshalAll es = .ok ps ↔ es.map DE.marshalOpt = ps.map .ok := by
  induction es generalizing ps with
  | nil => cases ps <;> simp [DE.marshalAll]
  | cons e es ih =>
    rw [DE.marshalAll]
    cases he : DE.marshalOpt e with
    | ok b =>
      simp only [Outcome.bind]
      cases hr : DE.marshalAll es with
      | ok qs =>
        have := (ih (ps := qs)).1 hr
        simp only [Outcome.map', Outcome.ok.injEq, List.map_cons, he, this]
        cases ps with
        | nil => simp
        | cons p ps =>
          simp only [List.cons.injEq, List.map_cons, Outcome.ok.injEq]
          constructor
          · rintro ⟨rfl, rfl⟩; exact ⟨rfl, rfl⟩
          · rintro ⟨rfl, h⟩
            refine ⟨rfl, ?_⟩
            have := (ih (ps := ps)).2 (by rw [this, h])
            rw [hr] at this; simpa using this
      | err =>
        simp only [Outcome.map', List.map_cons, he]
        cases ps with
        | nil => simp
        | cons p ps =>
          simp only [List.map_cons, List.cons.injEq, reduceCtorEq, false_iff, not_and]
          intro _ h
          rw [← ih, hr] at h; simp at h
      | panic =>
        simp only [Outcome.map', List.map_cons, he]
        cases ps with
        | nil => simp
        | cons p ps =>
          simp only [List.map_cons, List.cons.injEq, reduceCtorEq, false_iff, not_and]
          intro _ h
          rw [← ih, hr] at h; simp at h
    | err => cases ps <;> simp [he]
    | panic => cases ps <;> simp [he]

theorem wireSize_pre (sep : Byte) (ps : List Bytes) : (pre sep ps).length = wireSize ps := by
  induction ps with
  | nil => rfl
  | cons p ps ih => rw [pre_cons]; simp [wireSize] at ih ⊢; omega

end Verif.Element

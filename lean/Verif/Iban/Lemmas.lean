import Verif.Iban.Model
import Verif.Iban.Spec
import Verif.Element.Props
import Mathlib.Tactic.Ring
import Mathlib.Tactic.NormNum.Prime
import Mathlib.Data.Int.ModEq
import Mathlib.RingTheory.Int.Basic

namespace Verif.Iban

open GoLib Token Verif.Token.Spec Iban.Spec

instance (b : Byte) : Decidable (IbanChar b) := by unfold IbanChar Digit; infer_instance
instance (b : Byte) : Decidable (IbanCharAnyCase b) := by unfold IbanCharAnyCase; infer_instance

theorem upper_alnum_iff (b : Byte) : IbanChar (upperByte b) ↔ IbanCharAnyCase b := by
  revert b; decide +kernel

theorem upperByte_of_alnum {b : Byte} (h : IbanChar b) : upperByte b = b := by
  revert b; decide +kernel

theorem upperByte_idem (b : Byte) : upperByte (upperByte b) = upperByte b := by
  revert b; decide +kernel

theorem upperByte_digit_iff (b : Byte) : isDigit (upperByte b) = true → upperByte b = b := by
  revert b; decide +kernel

theorem upperByte_sign (b c : Byte) (hc : c = 45 ∨ c = 43) : upperByte b = c ↔ b = c := by
  rcases hc with rfl | rfl <;> revert b <;> decide +kernel

theorem upper_of_alnum {s : Bytes} (h : ∀ b ∈ s, IbanChar b) : upper s = s := by
  unfold upper
  conv_rhs => rw [← List.map_id s]
  apply List.map_congr_left
  intro b hb
  exact upperByte_of_alnum (h b hb)

theorem upper_idem (s : Bytes) : upper (upper s) = upper s := by
  unfold upper
  rw [List.map_map]
  apply List.map_congr_left
  intro b _
  exact upperByte_idem b

theorem upper_length (s : Bytes) : (upper s).length = s.length := by simp [upper]

theorem upper_append (s t : Bytes) : upper (s ++ t) = upper s ++ upper t := by simp [upper]

/-- One letter becomes its two digits. -/
theorem letter_digits (b : Byte) (h : IbanChar b) :
    ((alphaToDigit.lookup b).getD [b]).all isDigit = true ∧ (alphaToDigit.lookup b).getD [b] ≠ [] ∧
    digitsVal ((alphaToDigit.lookup b).getD [b]) = charValue b ∧
    10 ^ ((alphaToDigit.lookup b).getD [b]).length = weight b := by
  revert b; decide +kernel

theorem letter_other (b : Byte) (h : ¬ IbanChar b) : (alphaToDigit.lookup b).getD [b] = [b] ∧ isDigit b = false := by
  revert b; decide +kernel

theorem digitsVal_from (ds : Bytes) : ∀ n, ds.foldl (fun n d => n * 10 + (d.toNat - 48)) n =
    n * 10 ^ ds.length + digitsVal ds := by
  induction ds with
  | nil => intro n; simp [digitsVal]
  | cons d ds ih =>
    intro n
    unfold digitsVal
    rw [List.foldl_cons, List.foldl_cons, ih, ih (0 * 10 + _), List.length_cons]
    ring

theorem digitsVal_append (a b : Bytes) : digitsVal (a ++ b) = digitsVal a * 10 ^ b.length + digitsVal b := by
  unfold digitsVal
  rw [List.foldl_append, digitsVal_from]
  rfl

/-- Decimal places of an alphanumeric string. -/
def places (s : Bytes) : Nat := (lettersToDigits s).length

theorem lettersToDigits_append (a b : Bytes) : lettersToDigits (a ++ b) = lettersToDigits a ++ lettersToDigits b := by
  simp [lettersToDigits]

theorem lettersToDigits_cons (a : Byte) (b : Bytes) :
    lettersToDigits (a :: b) = (alphaToDigit.lookup a).getD [a] ++ lettersToDigits b := by
  simp [lettersToDigits]

theorem letters_all {s : Bytes} : (∀ b ∈ lettersToDigits s, isDigit b = true) ↔ ∀ b ∈ s, IbanChar b := by
  induction s with
  | nil => simp [lettersToDigits]
  | cons a s ih =>
    rw [lettersToDigits_cons]
    by_cases ha : IbanChar a
    · have h1 := (letter_digits a ha).1
      rw [List.all_eq_true] at h1
      constructor
      · intro h b hb
        rcases List.mem_cons.1 hb with rfl | hb
        · exact ha
        · exact ih.1 (fun x hx => h x (List.mem_append_right _ hx)) b hb
      · intro h b hb
        rcases List.mem_append.1 hb with hb | hb
        · exact h1 b hb
        · exact ih.2 (fun x hx => h x (by simp [hx])) b hb
    · obtain ⟨h1, h2⟩ := letter_other a ha
      constructor
      · intro h
        have := h a (by rw [h1]; simp)
        rw [h2] at this; cases this
      · intro h
        exact absurd (h a (by simp)) ha

theorem letters_ne_nil {s : Bytes} (h : s ≠ []) : lettersToDigits s ≠ [] := by
  cases s with
  | nil => exact absurd rfl h
  | cons a s =>
    rw [lettersToDigits_cons]
    by_cases ha : IbanChar a
    · have := (letter_digits a ha).2.1
      intro hx
      exact this (List.append_eq_nil_iff.1 hx).1
    · rw [(letter_other a ha).1]; simp

theorem number_from (s : Bytes) (h : ∀ b ∈ s, IbanChar b) : ∀ n, s.foldl (fun n b => n * weight b + charValue b) n =
    n * 10 ^ places s + digitsVal (lettersToDigits s) := by
  induction s with
  | nil => intro n; simp [places, lettersToDigits, digitsVal]
  | cons a s ih =>
    intro n
    have ha := letter_digits a (h a (by simp))
    rw [List.foldl_cons, ih (fun b hb => h b (by simp [hb]))]
    unfold places
    rw [lettersToDigits_cons, digitsVal_append, List.length_append, pow_add, ← ha.2.2.1, ← ha.2.2.2]
    ring

theorem number_eq {s : Bytes} (h : ∀ b ∈ s, IbanChar b) : number s = digitsVal (lettersToDigits s) := by
  unfold number
  rw [number_from s h]
  simp

theorem number_append {s t : Bytes} (hs : ∀ b ∈ s, IbanChar b) (ht : ∀ b ∈ t, IbanChar b) :
    number (s ++ t) = number s * 10 ^ places t + number t := by
  rw [number_eq hs, number_eq ht, number_eq (by
    intro b hb
    rcases List.mem_append.1 hb with hb | hb
    · exact hs b hb
    · exact ht b hb), lettersToDigits_append, digitsVal_append]
  rfl

/-! ## `big.Int.SetString` -/

theorem bigSet_digits {s : Bytes} (hne : s ≠ []) (h : ∀ b ∈ s, isDigit b = true) : bigSet s = some (digitsVal s : Int) := by
  have hs : (s = [] ∨ (s.any fun b => !isDigit b) = true) ↔ False := by
    simp only [hne, false_or, iff_false, List.any_eq_true, not_exists, not_and]
    intro b hb
    simp [h b hb]
  cases s with
  | nil => exact absurd rfl hne
  | cons b r =>
    have h1 : b ≠ 45 := by intro hx; have := h b (by simp); rw [hx] at this; exact absurd this (by decide)
    have h2 : b ≠ 43 := by intro hx; have := h b (by simp); rw [hx] at this; exact absurd this (by decide)
    unfold bigSet
    split
    rename_i neg ds hx
    have : (neg, ds) = (false, b :: r) := by
      rw [← hx]
      split
      · rename_i heq; exact absurd (List.cons.inj heq).1 h1
      · rename_i heq; exact absurd (List.cons.inj heq).1 h2
      · rfl
    cases this
    rw [if_neg (by rw [hs]; trivial)]
    simp

theorem bigSet_minus {r : Bytes} : bigSet (45 :: r) = if r ≠ [] ∧ (∀ b ∈ r, isDigit b = true) then some (-(digitsVal r : Int)) else none := by
  unfold bigSet
  simp only [if_true]
  by_cases h : r ≠ [] ∧ (∀ b ∈ r, isDigit b = true)
  · rw [if_pos h, if_neg]
    simp only [h.1, false_or, List.any_eq_true, not_exists, not_and]
    intro b hb
    simp [h.2 b hb]
  · rw [if_neg h, if_pos]
    by_cases h1 : r = []
    · exact Or.inl h1
    · right
      have : ¬ ∀ b ∈ r, isDigit b = true := fun h2 => h ⟨h1, h2⟩
      simp only [List.any_eq_true]
      push Not at this
      obtain ⟨b, hb, hd⟩ := this
      exact ⟨b, hb, by simpa using hd⟩

theorem bigSet_plus {r : Bytes} : bigSet (43 :: r) = if r ≠ [] ∧ (∀ b ∈ r, isDigit b = true) then some (digitsVal r : Int) else none := by
  unfold bigSet
  simp only [Bool.false_eq_true, if_false]
  by_cases h : r ≠ [] ∧ (∀ b ∈ r, isDigit b = true)
  · rw [if_pos h, if_neg]
    simp only [h.1, false_or, List.any_eq_true, not_exists, not_and]
    intro b hb
    simp [h.2 b hb]
  · rw [if_neg h, if_pos]
    by_cases h1 : r = []
    · exact Or.inl h1
    · right
      have : ¬ ∀ b ∈ r, isDigit b = true := fun h2 => h ⟨h1, h2⟩
      simp only [List.any_eq_true]
      push Not at this
      obtain ⟨b, hb, hd⟩ := this
      exact ⟨b, hb, by simpa using hd⟩

theorem bigSet_some {s : Bytes} {n : Int} (h : bigSet s = some n) :
    (s ≠ [] ∧ (∀ b ∈ s, isDigit b = true) ∧ n = digitsVal s) ∨
    (∃ r, s = 43 :: r ∧ r ≠ [] ∧ (∀ b ∈ r, isDigit b = true) ∧ n = digitsVal r) ∨
    (∃ r, s = 45 :: r ∧ r ≠ [] ∧ (∀ b ∈ r, isDigit b = true) ∧ n = -(digitsVal r : Int)) := by
  match s with
  | [] => simp [bigSet] at h
  | b :: r =>
    by_cases h1 : b = 45
    · subst h1
      rw [bigSet_minus] at h
      split at h
      · rename_i hr
        exact Or.inr (Or.inr ⟨r, rfl, hr.1, hr.2, by simpa using h.symm⟩)
      · cases h
    · by_cases h2 : b = 43
      · subst h2
        rw [bigSet_plus] at h
        split at h
        · rename_i hr
          exact Or.inr (Or.inl ⟨r, rfl, hr.1, hr.2, by simpa using h.symm⟩)
        · cases h
      · left
        unfold bigSet at h
        split at h
        rename_i neg ds hx
        have : (neg, ds) = (false, b :: r) := by
          rw [← hx]
          split
          · rename_i heq; exact absurd (List.cons.inj heq).1 h1
          · rename_i heq; exact absurd (List.cons.inj heq).1 h2
          · rfl
        cases this
        split at h
        · cases h
        · rename_i hd
          simp only [Bool.false_eq_true, if_false, Option.some.injEq] at h
          push Not at hd
          refine ⟨hd.1, ?_, h.symm⟩
          intro x hx
          have := hd.2
          simp only [Bool.not_eq_true, List.any_eq_false] at this
          simpa using this x hx

/-- The two check digits. -/
theorem check_digits (r : Int) (h1 : 0 ≤ r) (h2 : r < 97) :
    (zeroPad 2 (98 - r)).length = 2 ∧ (∀ b ∈ zeroPad 2 (98 - r), isDigit b = true) ∧
    (digitsVal (zeroPad 2 (98 - r)) : Int) = 98 - r := by
  have : ∀ k : Fin 97, (zeroPad 2 (98 - (k.val : Int))).length = 2 ∧ (zeroPad 2 (98 - (k.val : Int))).all isDigit = true ∧
    (digitsVal (zeroPad 2 (98 - (k.val : Int))) : Int) = 98 - (k.val : Int) := by decide +kernel
  obtain ⟨k, rfl⟩ := Int.eq_ofNat_of_zero_le h1
  obtain ⟨a, b, c⟩ := this ⟨k, by omega⟩
  exact ⟨a, List.all_eq_true.1 b, c⟩

theorem maxLength_bounds (cc : Bytes) : 15 ≤ maxLength cc ∧ maxLength cc ≤ 34 := by
  have : ∀ p ∈ maxLengthForCountry, 15 ≤ p.2 ∧ p.2 ≤ 34 := by decide +kernel
  unfold maxLength
  cases h : maxLengthForCountry.lookup cc with
  | none => simp
  | some n =>
    have hm : (cc, n) ∈ maxLengthForCountry := by
      rw [List.lookup_eq_some_iff] at h
      obtain ⟨l1, l2, h, _⟩ := h
      rw [h]; simp
    simpa using this _ hm

end Verif.Iban

import Verif.GoLib
import Verif.Token.Lemmas

/-
Lemmas about the modelled library functions.
-/

namespace Verif.GoLib

open Verif.Token.Spec (Digit DigitString Numeric)

theorem isDigit_iff : ∀ b : Byte, isDigit b = true ↔ (48 ≤ b.toNat ∧ b.toNat ≤ 57) := by decide +kernel

theorem digit_toNat {n : Nat} (h : n < 10) : (UInt8.ofNat (48 + n)).toNat = 48 + n := by
  rw [UInt8.toNat_ofNat']; omega

theorem digit_digit {n : Nat} (h : n < 10) : Digit (UInt8.ofNat (48 + n)) := by
  unfold Digit; rw [digit_toNat h]; omega

theorem natDecAux_append (f : Nat) : ∀ (n : Nat) (acc : Bytes), n < f →
    natDecAux f n acc = natDecAux f n [] ++ acc := by
  induction f with
  | zero => intro n acc h; omega
  | succ f ih =>
    intro n acc h
    unfold natDecAux
    split
    · simp
    · rw [ih (n / 10) (_ :: acc) (by omega), ih (n / 10) [_] (by omega)]
      simp

theorem natDecAux_fuel (f : Nat) : ∀ (g n : Nat), n < f → n < g → natDecAux f n [] = natDecAux g n [] := by
  induction f with
  | zero => intro g n h; omega
  | succ f ih =>
    intro g n h1 h2
    cases g with
    | zero => omega
    | succ g =>
      unfold natDecAux
      split
      · rfl
      · rw [natDecAux_append f _ _ (by omega), natDecAux_append g _ _ (by omega),
          ih g (n / 10) (by omega) (by omega)]

/-- Recursion equation of decimal printing. -/
theorem natDec_eq (n : Nat) :
    natDec n = if n < 10 then [UInt8.ofNat (48 + n)] else natDec (n / 10) ++ [UInt8.ofNat (48 + n % 10)] := by
  conv => lhs; unfold natDec natDecAux
  split
  · rfl
  · rw [natDecAux_append n _ _ (by omega), natDecAux_fuel n (n / 10 + 1) (n / 10) (by omega) (by omega)]
    rfl

theorem natDec_digits (n : Nat) : DigitString (natDec n) := by
  induction n using Nat.strongRecOn with
  | ind n ih =>
    rw [natDec_eq]
    split
    · exact ⟨by simp, by simpa using digit_digit (by assumption)⟩
    · have := ih (n / 10) (by omega)
      refine ⟨by simp, ?_⟩
      intro b hb
      simp only [List.mem_append, List.mem_singleton] at hb
      rcases hb with hb | rfl
      · exact this.2 b hb
      · exact digit_digit (by omega)

theorem digitsVal_append (a : Bytes) (d : Byte) :
    digitsVal (a ++ [d]) = digitsVal a * 10 + (d.toNat - 48) := by
  simp [digitsVal]

theorem digitsVal_eq (ds : Bytes) : digitsVal ds = Token.Spec.value ds := Token.decVal_eq ds

theorem digitsVal_natDec (n : Nat) : digitsVal (natDec n) = n := by
  induction n using Nat.strongRecOn with
  | ind n ih =>
    rw [natDec_eq]
    split
    · simp only [digitsVal, List.foldl_cons, List.foldl_nil]
      rw [digit_toNat (by assumption)]; omega
    · rw [digitsVal_append, ih (n / 10) (by omega), digit_toNat (by omega)]
      omega

theorem digitsVal_zeros (k : Nat) (ds : Bytes) : digitsVal (List.replicate k 48 ++ ds) = digitsVal ds := by
  induction k with
  | zero => simp
  | succ k ih =>
    rw [List.replicate_succ, List.cons_append]
    simpa [digitsVal] using ih

theorem natDec_head (n : Nat) : n ≠ 0 → (natDec n).head? ≠ some 48 := by
  induction n using Nat.strongRecOn with
  | ind n ih =>
    intro hn
    rw [natDec_eq]
    split
    · rename_i h
      simp only [List.head?_cons, ne_eq, Option.some.injEq]
      intro h2
      have := congrArg UInt8.toNat h2
      rw [digit_toNat h] at this
      simp at this
      omega
    · have h1 := ih (n / 10) (by omega) (by omega)
      have h2 := (natDec_digits (n / 10)).1
      cases h : natDec (n / 10) with
      | nil => exact absurd h h2
      | cons a l => rw [h] at h1; simpa using h1

theorem natDec_zero : natDec 0 = [48] := rfl

/-- Decimal printing never has a superfluous leading zero. -/
theorem natDec_numeric (n : Nat) : Numeric (natDec n) := by
  refine ⟨natDec_digits n, ?_⟩
  by_cases h : n = 0
  · subst h; exact Or.inl rfl
  · exact Or.inr (natDec_head n h)

theorem natDec_length_le {n k : Nat} (hk : 1 ≤ k) (h : n < 10 ^ k) : (natDec n).length ≤ k := by
  induction k generalizing n with
  | zero => omega
  | succ k ih =>
    rw [natDec_eq]
    split
    · simp
    · by_cases hk0 : k = 0
      · subst hk0; simp at h; omega
      · have : n / 10 < 10 ^ k := by
          rw [Nat.pow_succ] at h
          omega
        have := ih (by omega) this
        simp; omega

/-- Reading a digit string below the limit. -/
theorem atoi_digits {ds : Bytes} (h : DigitString ds) (hv : digitsVal ds < 2 ^ 63) :
    atoi ds = some (digitsVal ds : Int) := by
  cases ds with
  | nil => exact absurd rfl h.1
  | cons a r =>
    have ha := h.2 a (by simp)
    have h1 : a ≠ 45 := by rintro rfl; simp [Digit] at ha
    have h2 : a ≠ 43 := by rintro rfl; simp [Digit] at ha
    have hall : (a :: r).any (fun b => !isDigit b) = false := by
      rw [List.any_eq_false]
      intro x hx
      have := (isDigit_iff x).2 (h.2 x hx)
      simp [this]
    unfold atoi
    split
    rename_i neg ds' heq
    split at heq
    · rename_i r' he; simp at he; exact absurd he.1 h1
    · rename_i r' he; simp at he; exact absurd he.1 h2
    · simp only [Prod.mk.injEq] at heq
      obtain ⟨rfl, rfl⟩ := heq
      rw [if_neg (by simp [hall])]
      simp [hv]

theorem atoi_neg {ds : Bytes} (h : DigitString ds) (hv : digitsVal ds ≤ 2 ^ 63) :
    atoi (45 :: ds) = some (-(digitsVal ds : Int)) := by
  have hall : ds.any (fun b => !isDigit b) = false := by
    rw [List.any_eq_false]
    intro x hx
    have := (isDigit_iff x).2 (h.2 x hx)
    simp [this]
  unfold atoi
  simp only
  rw [if_neg (by simp [hall, h.1])]
  simp [hv]

/-- `strconv.Atoi(strconv.Itoa(i)) = i` for every int. -/
theorem atoi_itoa (i : Int) (h1 : -(2 ^ 63) ≤ i) (h2 : i < 2 ^ 63) : atoi (itoa i) = some i := by
  unfold itoa
  split
  · rw [atoi_neg (natDec_digits _) (by rw [digitsVal_natDec]; omega), digitsVal_natDec]
    congr 1; omega
  · rw [atoi_digits (natDec_digits _) (by rw [digitsVal_natDec]; omega), digitsVal_natDec]
    congr 1; omega

/-- What `strconv.Atoi` accepts. -/
theorem atoi_some {s : Bytes} {i : Int} (h : atoi s = some i) :
    (∃ ds, DigitString ds ∧ (s = ds ∨ s = 43 :: ds) ∧ i = digitsVal ds ∧ digitsVal ds < 2 ^ 63) ∨
    (∃ ds, DigitString ds ∧ s = 45 :: ds ∧ i = -(digitsVal ds : Int) ∧ digitsVal ds ≤ 2 ^ 63) := by
  unfold atoi at h
  split at h
  rename_i neg ds heq
  split at h
  · simp at h
  · rename_i hd
    have hd2 : DigitString ds := by
      simp only [not_or, Bool.not_eq_true, List.any_eq_false] at hd
      refine ⟨hd.1, fun b hb => ?_⟩
      have := hd.2 b hb
      simp at this
      exact (isDigit_iff b).1 this
    dsimp only at h
    split at heq
    · simp only [Prod.mk.injEq] at heq
      obtain ⟨rfl, rfl⟩ := heq
      right
      simp only [if_true] at h
      split at h
      · simp at h; exact ⟨_, hd2, rfl, h.symm, by assumption⟩
      · simp at h
    · simp only [Prod.mk.injEq] at heq
      obtain ⟨rfl, rfl⟩ := heq
      left
      simp only [Bool.false_eq_true, if_false] at h
      split at h
      · simp at h; exact ⟨_, hd2, Or.inr rfl, h.symm, by assumption⟩
      · simp at h
    · simp only [Prod.mk.injEq] at heq
      obtain ⟨rfl, rfl⟩ := heq
      left
      simp only [Bool.false_eq_true, if_false] at h
      split at h
      · simp at h; exact ⟨_, hd2, Or.inl rfl, h.symm, by assumption⟩
      · simp at h

/-! ## Join, trim -/

theorem join_cons (sep : Byte) (p : Bytes) {ps : List Bytes} (h : ps ≠ []) :
    join sep (p :: ps) = p ++ sep :: join sep ps := by
  cases ps with
  | nil => exact absurd rfl h
  | cons q qs => rfl

theorem trimRight_append_single (c : Byte) (s : Bytes) : trimRight c (s ++ [c]) = trimRight c s := by
  simp [trimRight]

theorem trimRight_of_last {c : Byte} {s : Bytes} (h : s.getLast? ≠ some c) : trimRight c s = s := by
  rcases List.eq_nil_or_concat s with rfl | ⟨s', d, rfl⟩
  · rfl
  · simp at h
    have : (d == c) = false := by simpa using h
    simp [trimRight, this]

theorem trimRight_getLast? (c : Byte) (s : Bytes) : (trimRight c s).getLast? ≠ some c := by
  intro h
  unfold trimRight at h
  rw [List.getLast?_reverse] at h
  have := List.head?_dropWhile_not (p := fun x => x == c) (l := s.reverse)
  rw [h] at this
  simp at this

theorem trimRight_replicate (c : Byte) (s : Bytes) (k : Nat) :
    trimRight c (s ++ List.replicate k c) = trimRight c s := by
  induction k with
  | zero => simp
  | succ k ih =>
    rw [List.replicate_succ', ← List.append_assoc, trimRight_append_single, ih]

/-- `trimRight` removes a block of `c` at the end and nothing else. -/
theorem trimRight_spec (c : Byte) (s : Bytes) : ∃ k, s = trimRight c s ++ List.replicate k c := by
  have h := (List.takeWhile_append_dropWhile (p := fun x => x == c) (l := s.reverse))
  refine ⟨(s.reverse.takeWhile (fun x => x == c)).length, ?_⟩
  have h2 : s.reverse.takeWhile (fun x => x == c) =
      List.replicate (s.reverse.takeWhile (fun x => x == c)).length c := by
    apply List.eq_replicate_of_mem
    intro b hb
    have := Token.takeWhile_all (p := fun x => x == c) b hb
    simpa using this
  have h3 := congrArg List.reverse h
  rw [List.reverse_append, List.reverse_reverse] at h3
  unfold trimRight
  conv => lhs; rw [← h3]
  congr 1
  rw [h2]; simp

/-! ## Binary search -/

theorem searchLoop_spec (f : Nat → Bool) (fuel : Nat) : ∀ i j, j - i ≤ fuel → i ≤ j →
    (∀ a b, a ≤ b → b < j → f a = true → f b = true) →
    i ≤ searchLoop f fuel i j ∧ searchLoop f fuel i j ≤ j ∧
    (∀ k, i ≤ k → k < searchLoop f fuel i j → f k = false) ∧
    (∀ k, searchLoop f fuel i j ≤ k → k < j → f k = true) := by
  induction fuel with
  | zero =>
    intro i j h1 h2 _
    have : i = j := by omega
    subst this
    simp only [searchLoop]
    refine ⟨Nat.le_refl _, Nat.le_refl _, ?_, ?_⟩
    · intro k h3 h4; omega
    · intro k h3 h4; omega
  | succ fuel ih =>
    intro i j h1 h2 hm
    unfold searchLoop
    split
    · rename_i hij
      dsimp only
      cases hf : f ((i + j) / 2) with
      | false =>
        simp only [Bool.not_false, if_true]
        obtain ⟨g1, g2, g3, g4⟩ := ih ((i + j) / 2 + 1) j (by omega) (by omega) hm
        refine ⟨by omega, g2, ?_, g4⟩
        intro k hk1 hk2
        by_cases hk : k ≤ (i + j) / 2
        · cases hfk : f k with
          | false => rfl
          | true => have := hm k _ hk (by omega) hfk; rw [hf] at this; simp at this
        · exact g3 k (by omega) hk2
      | true =>
        simp only [Bool.not_true, Bool.false_eq_true, if_false]
        obtain ⟨g1, g2, g3, g4⟩ := ih i ((i + j) / 2) (by omega) (by omega)
          (fun a b h1 h2 => hm a b h1 (by omega))
        refine ⟨g1, by omega, g3, ?_⟩
        intro k hk1 hk2
        by_cases hk : k < (i + j) / 2
        · exact g4 k hk1 hk
        · exact hm _ _ (by omega) hk2 hf
    · have : i = j := by omega
      subst this
      refine ⟨Nat.le_refl _, Nat.le_refl _, ?_, ?_⟩
      · intro k h3 h4; omega
      · intro k h3 h4; omega

end Verif.GoLib

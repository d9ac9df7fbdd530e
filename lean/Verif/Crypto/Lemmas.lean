import Verif.Crypto.Model
import Mathlib.Data.Nat.Digits.Lemmas

/-
Bytes and numbers.
-/

namespace Verif.Crypto

open Verif

theorem setBytes_concat (b : Bytes) (x : UInt8) : setBytes (b ++ [x]) = setBytes b * 256 + x.toNat := by
  simp [setBytes]

theorem setBytes_ofDigits (b : Bytes) : setBytes b = Nat.ofDigits 256 (b.reverse.map UInt8.toNat) := by
  induction b using List.reverseRecOn with
  | nil => rfl
  | append_singleton b x ih =>
    rw [setBytes_concat, ih]
    simp [Nat.ofDigits_cons]
    ring

theorem setBytes_append (a b : Bytes) : setBytes (a ++ b) = setBytes a * 256 ^ b.length + setBytes b := by
  induction b using List.reverseRecOn with
  | nil => simp [setBytes]
  | append_singleton b x ih =>
    rw [← List.append_assoc, setBytes_concat, setBytes_concat, ih]
    simp [pow_succ]
    ring

theorem setBytes_cons (x : UInt8) (b : Bytes) : setBytes (x :: b) = x.toNat * 256 ^ b.length + setBytes b := by
  have := setBytes_append [x] b
  simpa [setBytes] using this

theorem setBytes_lt (b : Bytes) : setBytes b < 256 ^ b.length := by
  induction b with
  | nil => simp [setBytes]
  | cons x b ih =>
    rw [setBytes_cons, List.length_cons, pow_succ]
    have := x.toNat_lt
    nlinarith [Nat.pos_of_ne_zero (pow_ne_zero b.length (by norm_num : (256 : ℕ) ≠ 0))]

theorem setBytes_zeros (n : Nat) (b : Bytes) : setBytes (List.replicate n 0 ++ b) = setBytes b := by
  induction n with
  | zero => simp
  | succ n ih => rw [List.replicate_succ, List.cons_append, setBytes_cons]; simpa using ih

theorem setBytes_numBytes (n : Nat) : setBytes (numBytes n) = n := by
  rw [setBytes_ofDigits, numBytes, ← List.map_reverse, List.reverse_reverse, List.map_map]
  have : (Nat.digits 256 n).map (UInt8.toNat ∘ UInt8.ofNat) = Nat.digits 256 n := by
    conv_rhs => rw [← List.map_id (Nat.digits 256 n)]
    apply List.map_congr_left
    intro d hd
    have := Nat.digits_lt_base (by norm_num : 1 < 256) hd
    simp only [Function.comp, UInt8.toNat_ofNat', id]
    exact Nat.mod_eq_of_lt this
  rw [this, Nat.ofDigits_digits]

/-- A number is written without leading zeros. -/
theorem numBytes_head (n : Nat) (b : Bytes) : numBytes n ≠ 0 :: b := by
  intro h
  by_cases hn : n = 0
  · subst hn; simp [numBytes] at h
  have hd : Nat.digits 256 n ≠ [] := Nat.digits_ne_nil_iff_ne_zero.2 hn
  have h1 := Nat.getLast_digit_ne_zero 256 hn
  have h2 : (numBytes n).head? = some 0 := by rw [h]; rfl
  rw [numBytes, List.head?_map, List.head?_reverse, List.getLast?_eq_getLast_of_ne_nil hd] at h2
  simp only [Option.map_some, Option.some.injEq] at h2
  have h3 := Nat.digits_lt_base (by norm_num : 1 < 256) (List.getLast_mem hd)
  have : (UInt8.ofNat ((Nat.digits 256 n).getLast hd)).toNat = 0 := by rw [h2]; rfl
  rw [UInt8.toNat_ofNat', Nat.mod_eq_of_lt h3] at this
  exact h1 this

theorem setBytes_eq_zero {b : Bytes} : setBytes b = 0 ↔ ∀ x ∈ b, x = 0 := by
  induction b with
  | nil => simp [setBytes]
  | cons x b ih =>
    rw [setBytes_cons]
    have : x.toNat = 0 ↔ x = 0 := by rw [← UInt8.toNat_inj]; rfl
    simp [ih, this]

/-- Two byte strings of the same value without leading zeros are equal. -/
theorem setBytes_inj {a b : Bytes} (h : setBytes a = setBytes b) (hl : a.length = b.length) : a = b := by
  induction a generalizing b with
  | nil => cases b <;> simp_all
  | cons x a ih =>
    cases b with
    | nil => simp at hl
    | cons y b =>
      simp only [List.length_cons, Nat.add_right_cancel_iff] at hl
      rw [setBytes_cons, setBytes_cons, hl] at h
      have h1 := setBytes_lt a
      have h2 := setBytes_lt b
      rw [hl] at h1
      have hx : x.toNat = y.toNat := by
        rcases Nat.lt_trichotomy x.toNat y.toNat with hh | hh | hh
        · nlinarith
        · exact hh
        · nlinarith
      rw [hx] at h
      rw [ih (by omega) hl, UInt8.toNat_inj.1 hx]

theorem numBytes_length_le {n L : Nat} (h : n < 256 ^ L) : (numBytes n).length ≤ L := by
  simp only [numBytes, List.length_map, List.length_reverse]
  exact (Nat.digits_length_le_iff (by norm_num) n).2 h

/-- What is written for the value of some bytes: these bytes without the leading zeros. -/
theorem numBytes_setBytes (b : Bytes) : numBytes (setBytes b) = b.dropWhile (· = 0) := by
  induction b with
  | nil => simp [setBytes, numBytes]
  | cons x b ih =>
    by_cases hx : x = 0
    · subst hx
      rw [setBytes_cons]
      simpa using ih
    · simp only [List.dropWhile_cons, hx, decide_false, Bool.false_eq_true, if_false]
      apply setBytes_inj (setBytes_numBytes _)
      apply le_antisymm
      · exact numBytes_length_le (setBytes_lt _)
      · have h1 := setBytes_lt (numBytes (setBytes (x :: b)))
        rw [setBytes_numBytes, setBytes_cons] at h1
        have hx' : 0 < x.toNat := Nat.pos_of_ne_zero fun h => hx (UInt8.toNat_inj.1 h)
        by_contra hc
        simp only [List.length_cons, not_le] at hc
        have : 256 ^ (numBytes (setBytes (x :: b))).length ≤ 256 ^ b.length := Nat.pow_le_pow_right (by norm_num) (by omega)
        rw [setBytes_cons] at this
        have h2 : 1 * 256 ^ b.length ≤ x.toNat * 256 ^ b.length := Nat.mul_le_mul_right _ hx'
        omega

theorem numBytes_zero : numBytes 0 = [] := by simp [numBytes]

theorem numBytes_ne_nil {n : Nat} (h : n ≠ 0) : numBytes n ≠ [] := by
  simp [numBytes, Nat.digits_ne_nil_iff_ne_zero, h]

theorem lt_of_bitLen {n : Nat} : n < 2 ^ bitLen n := Nat.lt_size_self n

theorem le_of_bitLen {n : Nat} (h : n ≠ 0) : 2 ^ (bitLen n - 1) ≤ n := by
  apply Nat.lt_size.1
  have : 0 < Nat.size n := Nat.size_pos.2 (Nat.pos_of_ne_zero h)
  unfold bitLen
  omega

/-- The bytes of a number are no more than the bits need. -/
theorem numBytes_length_bitLen {x n : Nat} (h : x < n) : (numBytes x).length ≤ (bitLen n + 7) / 8 := by
  apply numBytes_length_le
  have h1 : n < 2 ^ bitLen n := lt_of_bitLen
  have h2 : (256 : Nat) = 2 ^ 8 := rfl
  rw [h2, ← pow_mul]
  have : 2 ^ bitLen n ≤ 2 ^ (8 * ((bitLen n + 7) / 8)) := Nat.pow_le_pow_right (by norm_num) (by omega)
  omega

end Verif.Crypto

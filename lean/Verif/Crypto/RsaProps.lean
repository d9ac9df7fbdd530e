import Verif.Crypto.Lemmas
import Mathlib.Data.Nat.Squarefree
import Mathlib.FieldTheory.Finite.Basic
import Mathlib.Algebra.BigOperators.Associated
import Mathlib.Tactic.NormNum.Prime

/-
C54: RSA returns what it was given.
-/

namespace Verif.Crypto

open Verif

/-! ## Specification -/

/-- The exponents `e` and `d` undo each other for the modulus `n`: no prime divides `n` twice, and the
product of the exponents is 1 modulo `p - 1` for every prime divisor `p`. -/
structure KeyPair (n e d : Nat) : Prop where
  squarefree : Squarefree n
  enc : 0 < e
  dec : 0 < d
  inverse : ∀ p, p.Prime → p ∣ n → e * d ≡ 1 [MOD p - 1]

/-- The value of a byte string, big-endian. -/
def value (b : Bytes) : Nat := (b.map UInt8.toNat).foldl (fun a x => 256 * a + x) 0

/-- The bytes from `off` to `off + len`. -/
def section_ (b : Bytes) (off len : Nat) : Bytes := (b.drop off).take len

/-- The number of bytes of a modulus. -/
def size (n : Nat) : Nat := (Nat.size n + 7) / 8

/-! ## Numbers -/

theorem value_eq (b : Bytes) : setBytes b = value b := by
  unfold setBytes value
  rw [List.foldl_map]
  congr
  funext a x
  ring

theorem pow_of_prime {p x m : Nat} (hp : p.Prime) (hm : 0 < m) (h : m ≡ 1 [MOD p - 1]) : x ^ m ≡ x [MOD p] := by
  by_cases hx : p ∣ x
  · have h1 : x ≡ 0 [MOD p] := (Nat.modEq_zero_iff_dvd).2 hx
    have h2 : x ^ m ≡ 0 [MOD p] := (Nat.modEq_zero_iff_dvd).2 (dvd_pow hx (by omega))
    exact h2.trans h1.symm
  · obtain ⟨k, hk⟩ : ∃ k, m = 1 + (p - 1) * k := by
      have := (Nat.modEq_iff_dvd' (by omega : 1 ≤ m)).1 h.symm
      obtain ⟨k, hk⟩ := this
      exact ⟨k, by omega⟩
    have : Fact p.Prime := ⟨hp⟩
    rw [← ZMod.natCast_eq_natCast_iff]
    have hx0 : (x : ZMod p) ≠ 0 := by rwa [Ne, ZMod.natCast_eq_zero_iff]
    rw [hk]
    push_cast
    rw [pow_add, pow_mul, ZMod.pow_card_sub_one_eq_one hx0]
    simp

theorem pow_of_keyPair {n e d : Nat} (h : KeyPair n e d) (x : Nat) : x ^ (e * d) ≡ x [MOD n] := by
  have key : ∀ p, p.Prime → p ∣ n → x ^ (e * d) ≡ x [MOD p] := fun p hp hd =>
    pow_of_prime hp (Nat.mul_pos h.enc h.dec) (h.inverse p hp hd)
  have hle : x ≤ x ^ (e * d) := Nat.le_self_pow (Nat.mul_pos h.enc h.dec).ne' x
  apply Nat.ModEq.symm
  rw [Nat.modEq_iff_dvd' hle]
  rw [← Nat.prod_primeFactors_of_squarefree h.squarefree]
  apply Finset.prod_primes_dvd
  · intro p hp
    exact (Nat.prime_of_mem_primeFactors hp).prime
  · intro p hp
    exact (Nat.modEq_iff_dvd' hle).1 (key p (Nat.prime_of_mem_primeFactors hp) (Nat.dvd_of_mem_primeFactors hp)).symm

/-- C54: for every RSA key pair and every number below the modulus, processing with one exponent and
then with the other returns the number. -/
theorem C54_numbers {n e d x : Nat} (h : KeyPair n e d) (hx : x < n) :
    (processNumber ⟨n, e, none⟩ x).bind (processNumber ⟨n, d, none⟩) = .ok x := by
  simp only [processNumber, Outcome.bind, Outcome.ok.injEq]
  rw [← Nat.pow_mod, ← pow_mul, pow_of_keyPair h x, Nat.mod_eq_of_lt hx]

/-- C54: with a private key that has its factors (`NewRSAPrivateCrtKeyParameters`) nothing is ever
processed: the results are written to nil. -/
theorem C54_crt_panics (n d x : Nat) (k : Crt) : processNumber ⟨n, d, some k⟩ x = .panic := by
  simp only [processNumber, crtProcess, bigExp, bigSub, bigRem]
  split <;> simp

/-- C54: only these three allocations are missing.  With them the factors give what the exponent
gives. -/
theorem C54_crt_formula {p q d : Nat} (k : Crt) (x : Nat) (a b c : Int) (hp : p.Prime) (hq : q.Prime) (hne : p ≠ q)
    (h1 : k.p = p) (h2 : k.q = q) (hd : 0 < d) (h3 : 0 < k.dP ∧ k.dP ≡ d [MOD p - 1]) (h4 : 0 < k.dQ ∧ k.dQ ≡ d [MOD q - 1])
    (h5 : k.qInv * q ≡ 1 [MOD p]) :
    crtProcess (some a) (some b) (some c) k x = .ok ((x ^ d % (p * q) : Nat) : Int) := by
  have pw : ∀ {p m : Nat}, p.Prime → 0 < m → m ≡ d [MOD p - 1] → x ^ m ≡ x ^ d [MOD p] := by
    intro p m hp hm h
    by_cases hx : p ∣ x
    · have e1 : x ^ d ≡ 0 [MOD p] := (Nat.modEq_zero_iff_dvd).2 (dvd_pow hx (by omega))
      have e2 : x ^ m ≡ 0 [MOD p] := (Nat.modEq_zero_iff_dvd).2 (dvd_pow hx (by omega))
      exact e2.trans e1.symm
    · have : Fact p.Prime := ⟨hp⟩
      have hx0 : (x : ZMod p) ≠ 0 := by rwa [Ne, ZMod.natCast_eq_zero_iff]
      have red : ∀ j : Nat, (x : ZMod p) ^ j = (x : ZMod p) ^ (j % (p - 1)) := by
        intro j
        conv_lhs => rw [← Nat.mod_add_div j (p - 1), pow_add, pow_mul, ZMod.pow_card_sub_one_eq_one hx0]
        simp
      rw [← ZMod.natCast_eq_natCast_iff]
      push_cast
      rw [red m, red d, h]
  subst h1 h2
  have hP := pw hp h3.1 h3.2
  have hQ := pw hq h4.1 h4.2
  simp only [crtProcess, bigRem, hp.ne_zero, hq.ne_zero, if_false, Outcome.bind, bigExp, bigSub, bigMod, Outcome.ok.injEq]
  rw [← Nat.pow_mod, ← Nat.pow_mod]
  set u := x ^ k.dP % k.p with hu
  set v := x ^ k.dQ % k.q with hv
  have hcop : Nat.Coprime k.p k.q := (Nat.coprime_primes hp hq).2 hne
  have hp0 : (0 : Int) < k.p := by exact_mod_cast hp.pos
  have hq0 : (0 : Int) < k.q := by exact_mod_cast hq.pos
  set h : Int := ((u : Int) - v) * k.qInv % k.p with hh
  have hh0 : 0 ≤ h := Int.emod_nonneg _ hp0.ne'
  have hh1 : h < k.p := Int.emod_lt_of_pos _ hp0
  -- the value is in range
  have hvq : (v : Int) < k.q := by exact_mod_cast Nat.mod_lt _ hq.pos
  have hlt : h * k.q + v < (k.p * k.q : Nat) := by
    push_cast
    nlinarith
  have hge : 0 ≤ h * k.q + v := by positivity
  -- congruences
  have cq : (h * k.q + v : Int) ≡ (x ^ d : Nat) [ZMOD k.q] := by
    have e1 : (h * k.q + v : Int) ≡ v [ZMOD k.q] := by
      simp [Int.ModEq]
    have e2 : ((v : Nat) : Int) ≡ (x ^ d : Nat) [ZMOD k.q] := by
      rw [Int.natCast_modEq_iff]
      exact (Nat.mod_modEq _ _).trans hQ
    exact e1.trans e2
  have cp : (h * k.q + v : Int) ≡ (x ^ d : Nat) [ZMOD k.p] := by
    have e1 : h ≡ ((u : Int) - v) * k.qInv [ZMOD k.p] := Int.mod_modEq _ _
    have e2 : ((k.qInv * k.q : Nat) : Int) ≡ (1 : Nat) [ZMOD k.p] := (Int.natCast_modEq_iff).2 h5
    have e3 : h * k.q + v ≡ ((u : Int) - v) * k.qInv * k.q + v [ZMOD k.p] := (e1.mul_right _).add_right _
    have e4 : ((u : Int) - v) * k.qInv * k.q + v ≡ ((u : Int) - v) * 1 + v [ZMOD k.p] := by
      have := (e2.mul_left ((u : Int) - v)).add_right (v : Int)
      push_cast at this
      rwa [← mul_assoc] at this
    have e5 : ((u : Nat) : Int) ≡ (x ^ d : Nat) [ZMOD k.p] := by
      rw [Int.natCast_modEq_iff]
      exact (Nat.mod_modEq _ _).trans hP
    have e6 : ((u : Int) - v) * 1 + v = u := by ring
    rw [e6] at e4
    exact (e3.trans e4).trans e5
  have cpq : (h * k.q + v : Int) ≡ (x ^ d : Nat) [ZMOD ((k.p * k.q : Nat) : Int)] := by
    push_cast
    exact (Int.modEq_and_modEq_iff_modEq_mul (by simpa using hcop)).1 ⟨cp, by exact_mod_cast cq⟩
  have := cpq
  unfold Int.ModEq at this
  rw [Int.emod_eq_of_lt hge hlt] at this
  rw [this]
  norm_cast

example : KeyPair 3233 17 2753 := by
  have hf : (3233 : Nat) = 61 * 53 := rfl
  have h61 : Nat.Prime 61 := by norm_num
  have h53 : Nat.Prime 53 := by norm_num
  refine ⟨?_, by norm_num, by norm_num, ?_⟩
  · rw [hf, Nat.squarefree_mul (by norm_num)]
    exact ⟨h61.squarefree, h53.squarefree⟩
  · intro p hp hd
    rw [hf, hp.dvd_mul, Nat.prime_dvd_prime_iff_eq hp h61, Nat.prime_dvd_prime_iff_eq hp h53] at hd
    rcases hd with rfl | rfl <;> decide

example : (processNumber ⟨3233, 17, none⟩ 65).bind (processNumber ⟨3233, 2753, none⟩) = .ok 65 ∧
    processNumber ⟨3233, 17, none⟩ 65 = .ok 2790 := by decide +kernel

example : crtProcess (some 0) (some 0) (some 0) ⟨61, 53, 53, 49, 38⟩ 2790 = .ok 65 ∧
    processNumber ⟨3233, 2753, some ⟨61, 53, 53, 49, 38⟩⟩ 2790 = .panic := by decide +kernel

/-! ## Blocks -/

theorem arrayCopy_new (src : Bytes) (off len : Nat) (h : off + len ≤ src.length) :
    arrayCopy src off (List.replicate len 0) 0 len = .ok (section_ src off len) := by
  unfold arrayCopy section_
  rw [if_pos (by simp; omega)]
  have : ((src.drop off).take len).length = len := by simp; omega
  simp [List.take_take, this]

theorem convertInput_eq (enc : Bool) (k : Key) (inp : Bytes) (off len : Nat) (h : off + len ≤ inp.length)
    (hlen : len ≤ size k.modulus) :
    convertInput enc k inp off len =
      if value (section_ inp off len) < k.modulus then .ok (value (section_ inp off len)) else .panic := by
  unfold convertInput
  have h0 : ((bitLen k.modulus + 7) / 8 : Nat) = size k.modulus := rfl
  have hi : rsaInputBlockSize enc k = if enc then (size k.modulus : Int) - 1 else size k.modulus := by
    simp [rsaInputBlockSize, h0]
  rw [if_neg (by rw [hi]; split <;> omega), if_neg (by rw [hi]; split <;> simp_all; omega)]
  have hb : (if (off : Int) ≠ 0 ∨ (len : Int) ≠ inp.length then
      (makeBytes len).bind fun b => arrayCopy inp off b 0 len else .ok inp) = .ok (section_ inp off len) := by
    by_cases hc : (off : Int) ≠ 0 ∨ (len : Int) ≠ inp.length
    · rw [if_pos hc, makeBytes, if_pos (by omega)]
      exact arrayCopy_new inp off len h
    · rw [if_neg hc]
      push Not at hc
      have h1 : off = 0 := by omega
      have h2 : len = inp.length := by omega
      simp [section_, h1, h2]
  rw [hb]
  simp only [Outcome.bind, value_eq, ge_iff_le]
  by_cases hv : value (section_ inp off len) < k.modulus
  · rw [if_neg (by omega), if_pos hv]
  · rw [if_pos (by omega), if_neg hv]

theorem byteAt_zero {n : Nat} (h : n ≠ 0) : ∃ c, c ≠ 0 ∧ byteAt (numBytes n) 0 = .ok c := by
  rcases hb : numBytes n with _ | ⟨c, r⟩
  · exact absurd hb (numBytes_ne_nil h)
  · refine ⟨c, ?_, by simp [byteAt]⟩
    rintro rfl
    exact numBytes_head n r hb

/-- The number `y` in as many bytes as the modulus has. -/
theorem convertOutput_true {k : Key} {y : Nat} (h0 : y ≠ 0) (hy : y < k.modulus) :
    convertOutput true k y = .ok (List.replicate (size k.modulus - (numBytes y).length) 0 ++ numBytes y) := by
  obtain ⟨c, hc, hat⟩ := byteAt_zero h0
  have hle : (numBytes y).length ≤ size k.modulus := numBytes_length_bitLen hy
  have hs : rsaOutputBlockSize true k = size k.modulus := by simp [rsaOutputBlockSize, size, bitLen]
  unfold convertOutput
  simp only [hat, Outcome.bind, hc, false_and, if_false, if_true, hs]
  split
  · rw [makeBytes, if_pos (by omega)]
    unfold arrayCopy
    simp only [Int.toNat_natCast, List.length_replicate]
    rw [if_pos (by simp; omega)]
    have : (((size k.modulus : Int) - ((numBytes y).length : Int))).toNat = size k.modulus - (numBytes y).length := by omega
    have h2 : size k.modulus - (size k.modulus - (numBytes y).length) = (numBytes y).length := by omega
    have h3 : size k.modulus - (numBytes y).length + (numBytes y).length = size k.modulus := by omega
    simp [this, h2, h3]
  · have : size k.modulus - (numBytes y).length = 0 := by omega
    simp [this]

theorem convertOutput_false {k : Key} {y : Nat} (h0 : y ≠ 0) : convertOutput false k y = .ok (numBytes y) := by
  obtain ⟨c, hc, hat⟩ := byteAt_zero h0
  unfold convertOutput
  simp [hat, hc]

theorem convertOutput_zero (enc : Bool) (k : Key) : convertOutput enc k 0 = .panic := by
  simp [convertOutput, numBytes_zero, byteAt]

/-- Without CRT parameters. -/
theorem pow_mod_ne_zero {n e x : Nat} (hn : Squarefree n) (he : 0 < e) (h0 : x ≠ 0) (hx : x < n) : x ^ e % n ≠ 0 := by
  intro h
  have := (hn.dvd_pow_iff_dvd he.ne').1 (Nat.dvd_of_mod_eq_zero h)
  exact absurd (Nat.le_of_dvd (Nat.pos_of_ne_zero h0) this) (by omega)

/-- C54: an engine for encryption accepts exactly the non-empty sections of its input that have no
more bytes than the modulus and a value between 1 and the modulus; it panics for all others, zero
among them.  What it returns has exactly as many bytes as the modulus. -/
theorem C54_accepts {n e : Nat} (hn : Squarefree n) (he : 0 < e) (inp : Bytes) (off len : Nat) (h : off + len ≤ inp.length) :
    (len ≤ size n ∧ 0 < value (section_ inp off len) ∧ value (section_ inp off len) < n →
      ∃ c, rsaBlock true ⟨n, e, none⟩ inp off len = .ok c ∧ c.length = size n ∧ value c = value (section_ inp off len) ^ e % n) ∧
    (¬ (len ≤ size n ∧ 0 < value (section_ inp off len) ∧ value (section_ inp off len) < n) →
      rsaBlock true ⟨n, e, none⟩ inp off len = .panic) := by
  constructor
  · rintro ⟨h1, h2, h3⟩
    have hy := pow_mod_ne_zero hn he h2.ne' h3
    have hlt : value (section_ inp off len) ^ e % n < n := Nat.mod_lt _ (by omega)
    refine ⟨List.replicate (size n - (numBytes (value (section_ inp off len) ^ e % n)).length) 0 ++
      numBytes (value (section_ inp off len) ^ e % n), ?_, ?_, ?_⟩
    · unfold rsaBlock
      rw [convertInput_eq true ⟨n, e, none⟩ inp off len h h1, if_pos h3]
      exact convertOutput_true (k := ⟨n, e, none⟩) hy hlt
    · simp only [List.length_append, List.length_replicate]
      have := numBytes_length_bitLen hlt
      unfold bitLen at this
      unfold size
      omega
    · rw [← value_eq, setBytes_zeros, setBytes_numBytes]
  · intro hc
    unfold rsaBlock
    by_cases h1 : len ≤ size n
    · rw [convertInput_eq true ⟨n, e, none⟩ inp off len h h1]
      by_cases h3 : value (section_ inp off len) < n
      · have h2 : value (section_ inp off len) = 0 := by
          by_contra h2
          exact hc ⟨h1, by omega, h3⟩
        rw [if_pos h3, h2]
        simp only [Outcome.bind, processNumber, Nat.zero_pow he, Nat.zero_mod]
        exact convertOutput_zero _ _
      · rw [if_neg h3]
        rfl
    · have : convertInput true ⟨n, e, none⟩ inp off len = .panic := by
        unfold convertInput
        rw [if_pos]
        simp only [rsaInputBlockSize, if_true]
        have : ((bitLen n + 7) / 8 : Nat) = size n := rfl
        rw [this]
        omega
      rw [this]
      rfl

/-- C54: what an engine for encryption returns, an engine for decryption with the other exponent
turns back into the section of the input, but without its leading zeros. -/
theorem C54_blocks {n e d : Nat} (hk : KeyPair n e d) (inp : Bytes) (off len : Nat) (h : off + len ≤ inp.length)
    {c : Bytes} (hc : rsaBlock true ⟨n, e, none⟩ inp off len = .ok c) :
    rsaBlock false ⟨n, d, none⟩ c 0 c.length = .ok ((section_ inp off len).dropWhile (· = 0)) := by
  obtain ⟨hyes, hno⟩ := C54_accepts hk.squarefree hk.enc inp off len h
  by_cases hcond : len ≤ size n ∧ 0 < value (section_ inp off len) ∧ value (section_ inp off len) < n
  · obtain ⟨c', h1, h2, h3⟩ := hyes hcond
    rw [h1] at hc
    cases hc
    have hlt : value c < n := by rw [h3]; exact Nat.mod_lt _ (by omega)
    have hsec : section_ c 0 c.length = c := by simp [section_]
    have := convertInput_eq false ⟨n, d, none⟩ c 0 c.length (by omega) (by rw [h2])
    rw [hsec, if_pos hlt] at this
    unfold rsaBlock
    rw [show ((0 : Int)) = ((0 : Nat) : Int) from rfl, this]
    have hx : (value (section_ inp off len) ^ e % n) ^ d % n = value (section_ inp off len) := by
      have := C54_numbers hk hcond.2.2
      simpa [processNumber] using this
    simp only [Outcome.bind, processNumber, h3, hx]
    rw [convertOutput_false hcond.2.1.ne', ← value_eq, numBytes_setBytes]
  · rw [hno hcond] at hc
    cases hc

example : rsaBlock true ⟨3233, 17, none⟩ [7, 0, 65, 9] 1 2 = .ok [10, 230] ∧ rsaBlock false ⟨3233, 2753, none⟩ [10, 230] 0 2 = .ok [65] ∧
    rsaBlock true ⟨3233, 17, none⟩ [0, 0] 0 2 = .panic ∧ rsaBlock true ⟨3233, 17, none⟩ [0, 0, 1] 0 3 = .panic := by
  decide +kernel

end Verif.Crypto

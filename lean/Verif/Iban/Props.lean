import Verif.Iban.Lemmas

/-
C45 to C49: IBANs.
-/

namespace Verif.Iban

open GoLib Token Verif.Token.Spec Iban.Spec

theorem upper_chars {s : Bytes} : (∀ b ∈ upper s, IbanChar b) ↔ ∀ b ∈ s, IbanCharAnyCase b := by
  unfold upper
  simp only [List.mem_map, forall_exists_index, and_imp, forall_apply_eq_imp_iff₂, upper_alnum_iff]

/-! ## C45: construction -/

/-- What `New` accepts as BBAN: letters and digits, possibly behind a sign. -/
def Accepted (b : Bytes) : Prop :=
  ∃ sg r, b = sg ++ r ∧ (sg = [] ∨ sg = [43] ∨ sg = [45]) ∧ ∀ x ∈ r, IbanCharAnyCase x

theorem checked_digits {b cc t : Bytes} (hcc : cc ≠ []) (ht : ∀ x ∈ t, isDigit x = true)
    (hb : ∀ x ∈ b, IbanChar x) (hc : ∀ x ∈ cc, IbanChar x) :
    (lettersToDigits b ++ lettersToDigits cc ++ t ≠ []) ∧
    (∀ x ∈ lettersToDigits b ++ lettersToDigits cc ++ t, isDigit x = true) ∧
    digitsVal (lettersToDigits b ++ lettersToDigits cc ++ t) = number (b ++ cc) * 10 ^ t.length + value t := by
  refine ⟨?_, ?_, ?_⟩
  · intro h
    simp only [List.append_eq_nil_iff] at h
    exact letters_ne_nil hcc h.1.2
  · intro x hx
    simp only [List.mem_append] at hx
    rcases hx with (hx | hx) | hx
    · exact letters_all.2 hb x hx
    · exact letters_all.2 hc x hx
    · exact ht x hx
  · rw [digitsVal_append, ← lettersToDigits_append, digitsVal_eq t, number_eq]
    intro x hx
    rcases List.mem_append.1 hx with hx | hx
    · exact hb x hx
    · exact hc x hx

/-- C45: exactly which arguments `New` accepts; it never panics. -/
theorem C45_accepts (cc b : Bytes) :
    new cc b ≠ .panic ∧
    ((∃ i, new cc b = .ok i) ↔ cc.length = 2 ∧ (∀ x ∈ cc, IbanCharAnyCase x) ∧ b ≠ [] ∧
      b.length + 4 ≤ maxLength (upper cc) ∧ Accepted b) := by
  have hml := maxLength_bounds (upper cc)
  unfold new
  by_cases h1 : cc.length = 2
  · rw [if_neg (by simpa using h1)]
    dsimp only
    by_cases h2 : b.length = 0
    · rw [if_pos h2]
      simp [List.length_eq_zero_iff.1 h2]
    · rw [if_neg h2]
      have h2' : b ≠ [] := fun h => h2 (by simp [h])
      by_cases h3 : b.length > maxLength (upper cc) - 4
      · rw [if_pos h3]
        refine ⟨by simp, ⟨by rintro ⟨i, hi⟩; simp at hi, ?_⟩⟩
        rintro ⟨_, _, _, h4, _⟩
        omega
      · rw [if_neg h3]
        have h3' : b.length + 4 ≤ maxLength (upper cc) := by omega
        cases hs : bigSet (lettersToDigits (upper b) ++ lettersToDigits (upper cc) ++ b!"00") with
        | none =>
          refine ⟨by simp, ⟨by rintro ⟨i, hi⟩; simp at hi, ?_⟩⟩
          rintro ⟨_, hc, _, _, sg, r, rfl, hsg, hr⟩
          exfalso
          have hcu := upper_chars.2 hc
          have hru := upper_chars.2 hr
          have hcne : upper cc ≠ [] := by intro h; have := upper_length cc; rw [h] at this; simp at this; omega
          have hck := checked_digits (t := b!"00") hcne (by intro x hx; simp at hx; subst hx; decide) hru hcu
          rcases hsg with rfl | rfl | rfl
          · rw [List.nil_append, bigSet_digits hck.1 hck.2.1] at hs; cases hs
          · have e : upper ([43] ++ r) = 43 :: upper r := rfl
            rw [e, lettersToDigits_cons] at hs
            have e2 : (alphaToDigit.lookup 43).getD [43] = [43] := rfl
            rw [e2, List.append_assoc, List.append_assoc, List.singleton_append, ← List.append_assoc, bigSet_plus,
              if_pos ⟨hck.1, hck.2.1⟩] at hs
            cases hs
          · have e : upper ([45] ++ r) = 45 :: upper r := rfl
            rw [e, lettersToDigits_cons] at hs
            have e2 : (alphaToDigit.lookup 45).getD [45] = [45] := rfl
            rw [e2, List.append_assoc, List.append_assoc, List.singleton_append, ← List.append_assoc, bigSet_minus,
              if_pos ⟨hck.1, hck.2.1⟩] at hs
            cases hs
        | some n =>
          refine ⟨by simp, ⟨fun _ => ?_, fun _ => ⟨_, rfl⟩⟩⟩
          have key : ∀ s : Bytes, (∀ x ∈ s ++ lettersToDigits (upper cc) ++ b!"00", isDigit x = true) →
              (∀ x ∈ s, isDigit x = true) ∧ ∀ x ∈ cc, IbanCharAnyCase x := by
            intro s h
            refine ⟨fun x hx => h x (by simp [hx]), upper_chars.1 (letters_all.1 fun x hx => h x (by simp [hx]))⟩
          have hrest : ∀ (c : Byte) (r : Bytes), (c = 43 ∨ c = 45) →
              lettersToDigits (upper b) ++ lettersToDigits (upper cc) ++ b!"00" = c :: r →
              (∀ x ∈ r, isDigit x = true) → (∀ x ∈ cc, IbanCharAnyCase x) ∧ Accepted b := by
            intro c r hc he hr
            have hcn : ¬ IbanChar c := by rcases hc with rfl | rfl <;> decide
            cases b with
            | nil => exact absurd rfl h2'
            | cons d b =>
              have e1 : upper (d :: b) = upperByte d :: upper b := rfl
              rw [e1, lettersToDigits_cons] at he
              have hd : upperByte d = c := by
                by_cases hx : IbanChar (upperByte d)
                · have := letter_digits (upperByte d) hx
                  exfalso
                  cases hl : (alphaToDigit.lookup (upperByte d)).getD [upperByte d] with
                  | nil => exact this.2.1 hl
                  | cons y ys =>
                    rw [hl] at he this
                    have hy : isDigit y = true := List.all_eq_true.1 this.1 y (by simp)
                    have : y = c := (List.cons.inj he).1
                    rw [this] at hy
                    rcases hc with rfl | rfl <;> exact absurd hy (by decide)
                · rw [(letter_other _ hx).1] at he
                  exact (List.cons.inj he).1
              have hd' : d = c := (upperByte_sign d c hc.symm).1 hd
              rw [hd, (letter_other c hcn).1, List.append_assoc, List.append_assoc, List.singleton_append] at he
              have hr' := (List.cons.inj he).2
              rw [← List.append_assoc] at hr'
              rw [← hr'] at hr
              obtain ⟨k1, k2⟩ := key _ hr
              refine ⟨k2, [c], b, by rw [hd']; rfl, ?_, upper_chars.1 (letters_all.1 k1)⟩
              rcases hc with rfl | rfl
              · exact Or.inr (Or.inl rfl)
              · exact Or.inr (Or.inr rfl)
          rcases bigSet_some hs with ⟨_, hd, _⟩ | ⟨r, he, _, hr, _⟩ | ⟨r, he, _, hr, _⟩
          · obtain ⟨k1, k2⟩ := key _ hd
            exact ⟨h1, k2, h2', h3', [], b, rfl, Or.inl rfl, upper_chars.1 (letters_all.1 k1)⟩
          · obtain ⟨k1, k2⟩ := hrest 43 r (Or.inl rfl) he hr
            exact ⟨h1, k1, h2', h3', k2⟩
          · obtain ⟨k1, k2⟩ := hrest 45 r (Or.inr rfl) he hr
            exact ⟨h1, k1, h2', h3', k2⟩
  · rw [if_pos (by simpa using h1)]
    simp [h1]

/-- C45: the verdict of `Valid` for letters and digits of either case. -/
theorem C45_valid {cc p b : Bytes} (hc2 : cc.length = 2) (hp2 : p.length = 2) (hc : ∀ x ∈ cc, IbanCharAnyCase x)
    (hp : DigitString p) (hb : ∀ x ∈ b, IbanCharAnyCase x) :
    valid (cc ++ p ++ b) =
      .ok (decide (b.length ≤ 30 ∧ (number (upper b ++ upper cc) * 100 + value p) % 97 = 1)) := by
  have hlen : (cc ++ p ++ b).length = 4 + b.length := by simp only [List.length_append]; omega
  unfold valid
  by_cases hl : (cc ++ p ++ b).length > 34
  · rw [if_pos hl]
    have : ¬ b.length ≤ 30 := by omega
    simp [this]
  · rw [if_neg hl]
    have hb30 : b.length ≤ 30 := by omega
    have e1 : countryCode (cc ++ p ++ b) = .ok cc := by
      unfold countryCode slice
      rw [if_pos (by omega), List.append_assoc]
      simp [← hc2]
    have e2 : bban (cc ++ p ++ b) = .ok b := by
      unfold bban from'
      rw [if_pos (by omega)]
      have : (cc ++ p).length = 4 := by simp [hc2, hp2]
      rw [← this, List.drop_left]
    have e3 : proofNumber (cc ++ p ++ b) = .ok p := by
      unfold proofNumber slice
      rw [if_pos (by omega), List.append_assoc]
      conv_lhs => rw [← hc2, List.drop_left]
      rw [show (4 - cc.length) = p.length by omega, List.take_left]
    have hcne : upper cc ≠ [] := by intro h; have := upper_length cc; rw [h] at this; simp at this; omega
    obtain ⟨k1, k2, k3⟩ := checked_digits (b := upper b) (cc := upper cc) (t := p) hcne
      (fun x hx => (isDigit_iff x).2 (hp.2 x hx)) (upper_chars.2 hb) (upper_chars.2 hc)
    rw [e1, e2, e3]
    simp only [Outcome.bind]
    rw [bigSet_digits k1 k2, k3, hp2]
    simp only [hb30, true_and, Outcome.ok.injEq]
    rw [Bool.eq_iff_iff]
    simp only [beq_iff_eq, decide_eq_true_eq]
    constructor
    · intro h; omega
    · intro h; omega

/-- C45: for letters and digits within the length limit `New` returns country code, two
check digits between 02 and 98 and BBAN, in upper case; the check digits make the whole
number leave remainder 1 modulo 97; and the result is valid. -/
theorem C45_new {cc b : Bytes} (h2 : cc.length = 2) (hc : ∀ x ∈ cc, IbanCharAnyCase x) (hne : b ≠ [])
    (hb : ∀ x ∈ b, IbanCharAnyCase x) (hl : b.length + 4 ≤ maxLength (upper cc)) :
    ∃ ck, new cc b = .ok (upper cc ++ ck ++ upper b) ∧ ck.length = 2 ∧ DigitString ck ∧ 2 ≤ value ck ∧ value ck ≤ 98 ∧
      (number (upper b ++ upper cc) * 100 + value ck) % 97 = 1 ∧ valid (upper cc ++ ck ++ upper b) = .ok true := by
  have hml := maxLength_bounds (upper cc)
  have hcne : upper cc ≠ [] := by intro h; have := upper_length cc; rw [h] at this; simp at this; omega
  obtain ⟨k1, k2, k3⟩ := checked_digits (b := upper b) (cc := upper cc) (t := b!"00") hcne
    (by intro x hx; simp at hx; subst hx; decide) (upper_chars.2 hb) (upper_chars.2 hc)
  have hv0 : value b!"00" = 0 := by decide
  set N := number (upper b ++ upper cc) with hN
  rw [hv0] at k3
  have hpow : (10 : Nat) ^ (b!"00").length = 100 := by decide
  rw [hpow] at k3
  obtain ⟨c1, c2, c3⟩ := check_digits (((N * 100 + 0 : Nat) : Int) % 97) (by omega) (by omega)
  have hval : value (zeroPad 2 (98 - ((N * 100 + 0 : Nat) : Int) % 97)) = 98 - (N * 100) % 97 := by
    rw [digitsVal_eq] at c3; omega
  have hds : DigitString (zeroPad 2 (98 - ((N * 100 + 0 : Nat) : Int) % 97)) :=
    ⟨fun h => by rw [h] at c1; simp at c1, fun x hx => (isDigit_iff x).1 (c2 x hx)⟩
  have hmod : (N * 100 + value (zeroPad 2 (98 - ((N * 100 + 0 : Nat) : Int) % 97))) % 97 = 1 := by rw [hval]; omega
  refine ⟨zeroPad 2 (98 - ((N * 100 + 0 : Nat) : Int) % 97), ?_, c1, hds, by omega, by omega, hmod, ?_⟩
  · unfold new
    rw [if_neg (by simpa using h2)]
    dsimp only
    rw [if_neg (by simpa using hne), if_neg (by omega), bigSet_digits k1 k2, k3]
  · have hany : ∀ s : Bytes, (∀ x ∈ s, IbanCharAnyCase x) → ∀ x ∈ upper s, IbanCharAnyCase x := fun s hs x hx =>
      Or.inl (upper_chars.2 hs x hx)
    rw [C45_valid (by rw [upper_length]; exact h2) c1 (hany cc hc) hds (hany b hb), upper_idem, upper_idem, ← hN, hmod, upper_length]
    have : b.length ≤ 30 := by omega
    simp [this]

/-- C45: a BBAN behind a minus sign is accepted but the result is invalid, unless the
check digits happen to be 97. -/
theorem C45_minus {cc r i : Bytes} (h : new cc (45 :: r) = .ok i) :
    valid i = .ok (decide (proofNumber i = .ok b!"97")) := by
  obtain ⟨h2, hc, _, hl, sg, r', hr', hsg, hr⟩ := (C45_accepts cc (45 :: r)).2.1 ⟨i, h⟩
  have hrr : ∀ x ∈ r, IbanCharAnyCase x := by
    rcases hsg with rfl | rfl | rfl
    · exact absurd (hr 45 (by rw [List.nil_append] at hr'; rw [← hr']; simp)) (by decide)
    · simp at hr'
    · simp at hr'; rw [hr']; exact hr
  have hml := maxLength_bounds (upper cc)
  have hcne : upper cc ≠ [] := by intro h; have := upper_length cc; rw [h] at this; simp at this; omega
  have hcl : (upper cc).length = 2 := by rw [upper_length]; exact h2
  have e : upper (45 :: r) = 45 :: upper r := rfl
  have e2 : ∀ s, lettersToDigits (45 :: s) = 45 :: lettersToDigits s := fun s => by rw [lettersToDigits_cons]; rfl
  obtain ⟨k1, k2, k3⟩ := checked_digits (b := upper r) (cc := upper cc) (t := b!"00") hcne
    (by intro x hx; simp at hx; subst hx; decide) (upper_chars.2 hrr) (upper_chars.2 hc)
  have hv0 : value b!"00" = 0 := by decide
  have hpow : (10 : Nat) ^ (b!"00").length = 100 := by decide
  rw [hv0, hpow] at k3
  set N := number (upper r ++ upper cc) with hN
  unfold new at h
  rw [if_neg (by simpa using h2)] at h
  dsimp only at h
  rw [if_neg (by simp), if_neg (by omega), e, e2, List.cons_append, List.cons_append, bigSet_minus, if_pos ⟨k1, k2⟩, k3] at h
  simp only [Outcome.ok.injEq] at h
  obtain ⟨c1, c2, c3⟩ := check_digits ((-((N * 100 + 0 : Nat) : Int)) % 97) (by omega) (by omega)
  set ck := zeroPad 2 (98 - (-((N * 100 + 0 : Nat) : Int)) % 97) with hck
  have hil : i.length = 4 + (r.length + 1) := by
    rw [← h]; simp only [List.length_append, List.length_cons, hcl, c1, upper_length]
  have hrl : i.length ≤ 34 := by simp only [List.length_cons] at hl; omega
  have e1 : countryCode i = .ok (upper cc) := by
    unfold countryCode slice
    rw [if_pos (by omega), ← h, List.append_assoc]
    simp [← hcl]
  have e4 : bban i = .ok (45 :: upper r) := by
    unfold bban from'
    rw [if_pos (by omega), ← h]
    have : (upper cc ++ ck).length = 4 := by simp [hcl, c1]
    rw [← this, List.drop_left]
  have e5 : proofNumber i = .ok ck := by
    unfold proofNumber slice
    rw [if_pos (by omega), ← h, List.append_assoc]
    conv_lhs => rw [← hcl, List.drop_left]
    rw [show (4 - (upper cc).length) = ck.length by omega, List.take_left]
  obtain ⟨m1, m2, m3⟩ := checked_digits (b := upper r) (cc := upper cc) (t := ck) hcne c2 (upper_chars.2 hrr) (upper_chars.2 hc)
  rw [e5]
  unfold valid
  rw [if_neg (by omega), e1, e4, e5]
  simp only [Outcome.bind]
  have e6 : upper (45 :: upper r) = 45 :: upper r := by rw [← e, upper_idem]
  rw [e6, upper_idem, e2, List.cons_append, List.cons_append, bigSet_minus, if_pos ⟨m1, m2⟩, m3, ← hN, c1]
  simp only [Outcome.ok.injEq]
  have hckeq : ck = b!"97" ↔ value ck = 97 := by
    constructor
    · intro h; rw [h]; decide
    · intro h
      rw [← digitsVal_eq] at h
      have : (98 - (-((N * 100 + 0 : Nat) : Int)) % 97) = 97 := by omega
      rw [hck, this]
      decide
  rw [Bool.eq_iff_iff]
  simp only [beq_iff_eq, decide_eq_true_eq, hckeq]
  rw [digitsVal_eq] at c3
  omega

/-- C45: a BBAN behind a plus sign is accepted, and the result is valid. -/
theorem C45_plus {cc r i : Bytes} (h : new cc (43 :: r) = .ok i) :
    valid i = .ok true := by
  obtain ⟨h2, hc, _, hl, sg, r', hr', hsg, hr⟩ := (C45_accepts cc (43 :: r)).2.1 ⟨i, h⟩
  have hrr : ∀ x ∈ r, IbanCharAnyCase x := by
    rcases hsg with rfl | rfl | rfl
    · exact absurd (hr 43 (by rw [List.nil_append] at hr'; rw [← hr']; simp)) (by decide)
    · simp at hr'; rw [hr']; exact hr
    · simp at hr'
  have hml := maxLength_bounds (upper cc)
  have hcne : upper cc ≠ [] := by intro h; have := upper_length cc; rw [h] at this; simp at this; omega
  have hcl : (upper cc).length = 2 := by rw [upper_length]; exact h2
  have e : upper (43 :: r) = 43 :: upper r := rfl
  have e2 : ∀ s, lettersToDigits (43 :: s) = 43 :: lettersToDigits s := fun s => by rw [lettersToDigits_cons]; rfl
  obtain ⟨k1, k2, k3⟩ := checked_digits (b := upper r) (cc := upper cc) (t := b!"00") hcne
    (by intro x hx; simp at hx; subst hx; decide) (upper_chars.2 hrr) (upper_chars.2 hc)
  have hv0 : value b!"00" = 0 := by decide
  have hpow : (10 : Nat) ^ (b!"00").length = 100 := by decide
  rw [hv0, hpow] at k3
  set N := number (upper r ++ upper cc) with hN
  unfold new at h
  rw [if_neg (by simpa using h2)] at h
  dsimp only at h
  rw [if_neg (by simp), if_neg (by omega), e, e2, List.cons_append, List.cons_append, bigSet_plus, if_pos ⟨k1, k2⟩, k3] at h
  simp only [Outcome.ok.injEq] at h
  obtain ⟨c1, c2, c3⟩ := check_digits (((N * 100 + 0 : Nat) : Int) % 97) (by omega) (by omega)
  set ck := zeroPad 2 (98 - ((N * 100 + 0 : Nat) : Int) % 97) with hck
  have hil : i.length = 4 + (r.length + 1) := by
    rw [← h]; simp only [List.length_append, List.length_cons, hcl, c1, upper_length]
  have hrl : i.length ≤ 34 := by simp only [List.length_cons] at hl; omega
  have e1 : countryCode i = .ok (upper cc) := by
    unfold countryCode slice
    rw [if_pos (by omega), ← h, List.append_assoc]
    simp [← hcl]
  have e4 : bban i = .ok (43 :: upper r) := by
    unfold bban from'
    rw [if_pos (by omega), ← h]
    have : (upper cc ++ ck).length = 4 := by simp [hcl, c1]
    rw [← this, List.drop_left]
  have e5 : proofNumber i = .ok ck := by
    unfold proofNumber slice
    rw [if_pos (by omega), ← h, List.append_assoc]
    conv_lhs => rw [← hcl, List.drop_left]
    rw [show (4 - (upper cc).length) = ck.length by omega, List.take_left]
  obtain ⟨m1, m2, m3⟩ := checked_digits (b := upper r) (cc := upper cc) (t := ck) hcne c2 (upper_chars.2 hrr) (upper_chars.2 hc)
  unfold valid
  rw [if_neg (by omega), e1, e4, e5]
  simp only [Outcome.bind]
  have e6 : upper (43 :: upper r) = 43 :: upper r := by rw [← e, upper_idem]
  rw [e6, upper_idem, e2, List.cons_append, List.cons_append, bigSet_plus, if_pos ⟨m1, m2⟩, m3, ← hN, c1]
  simp only [Outcome.ok.injEq]
  rw [digitsVal_eq] at c3
  simp only [beq_iff_eq]
  omega

/-- Non-vacuity of C45, and the finding about signs. -/
example : new b!"de" b!"500105175407324931" = .ok b!"DE44500105175407324931" ∧
    valid b!"DE44500105175407324931" = .ok true ∧
    new b!"DE" b!"-5" = .ok b!"DE04-5" ∧ valid b!"DE04-5" = .ok false := by decide +kernel

/-! ## C46: parsing -/

theorem new_upper (cc b : Bytes) : new (upper cc) (upper b) = new cc b := by
  unfold new
  simp only [upper_length, upper_idem]

theorem new_parts {cc b i : Bytes} (h : new cc b = .ok i) :
    ∃ ck, i = upper cc ++ ck ++ upper b ∧ ck.length = 2 ∧ (∀ x ∈ ck, isDigit x = true) ∧ cc.length = 2 := by
  unfold new at h
  split at h
  · simp at h
  · rename_i h2
    dsimp only at h
    split at h
    · simp at h
    · split at h
      · simp at h
      · split at h
        · simp at h
        · rename_i n _
          simp only [Outcome.ok.injEq] at h
          obtain ⟨c1, c2, _⟩ := check_digits (n % 97) (by omega) (by omega)
          exact ⟨_, h.symm, c1, c2, by simpa using h2⟩

theorem proofNumber_parts {cc ck b : Bytes} (h1 : cc.length = 2) (h2 : ck.length = 2) :
    proofNumber (cc ++ ck ++ b) = .ok ck := by
  have hlen : (cc ++ ck ++ b).length = 4 + b.length := by simp only [List.length_append]; omega
  unfold proofNumber slice
  rw [if_pos (by omega), List.append_assoc]
  conv_lhs => rw [← h1, List.drop_left]
  rw [show (4 - cc.length) = ck.length by omega, List.take_left]

/-- C46: `From` accepts exactly the strings that are, in upper case, a result of `New`,
and returns them in upper case. -/
theorem C46_from (s i : Bytes) :
    from_ s = .ok i ↔ (∃ cc b, new cc b = .ok i) ∧ upper s = i := by
  constructor
  · intro h
    unfold from_ slice from' at h
    by_cases hl : 4 ≤ s.length
    · rw [if_pos (by omega), if_pos (by omega), if_pos hl] at h
      simp only [Outcome.bind] at h
      cases hn : new ((s.drop 0).take (2 - 0)) (s.drop 4) with
      | err => rw [hn] at h; simp at h
      | panic => rw [hn] at h; simp at h
      | ok j =>
        rw [hn] at h
        simp only at h
        obtain ⟨ck, hj, hck, hdig, hcc⟩ := new_parts hn
        rw [hj, proofNumber_parts (by rw [upper_length]; exact hcc) hck] at h
        simp only at h
        split at h
        · simp at h
        · rename_i hp
          simp only [Outcome.ok.injEq] at h
          have hp' : (s.drop 2).take (4 - 2) = ck := by simpa using hp
          refine ⟨⟨_, _, by rw [hn, hj, h]⟩, ?_⟩
          have hs : s = s.take 2 ++ (s.drop 2).take 2 ++ s.drop 4 := by
            have : (s.drop 2).take 2 ++ (s.drop 2).drop 2 = s.drop 2 := List.take_append_drop _ _
            rw [List.drop_drop] at this
            rw [List.append_assoc, this, List.take_append_drop]
          have hcu : upper ck = ck := by
            unfold upper
            conv_rhs => rw [← List.map_id ck]
            apply List.map_congr_left
            intro x hx
            exact upperByte_of_alnum (Or.inl ((isDigit_iff x).1 (hdig x hx)))
          rw [← h]
          conv_lhs => rw [hs, upper_append, upper_append, show (s.drop 2).take 2 = ck from hp', hcu]
          rfl
    · exfalso
      by_cases h2 : 2 ≤ s.length
      · rw [if_pos h2, if_neg hl] at h; simp at h
      · rw [if_neg h2] at h; simp at h
  · rintro ⟨⟨cc, b, hn⟩, hu⟩
    obtain ⟨ck, hi, hck, hdig, hcc⟩ := new_parts hn
    have hlen : 4 ≤ s.length := by rw [← upper_length, hu, hi]; simp [upper_length, hcc, hck]; omega
    have e1 : upper (s.take 2) = upper cc := by
      have : (upper s).take 2 = upper cc := by
        rw [hu, hi, List.append_assoc]
        have : (upper cc).length = 2 := by rw [upper_length]; exact hcc
        conv_lhs => rw [← this, List.take_left]
      rw [← this]; simp [upper, List.map_take]
    have e2 : upper (s.drop 4) = upper b := by
      have : (upper s).drop 4 = upper b := by
        rw [hu, hi]
        have : (upper cc ++ ck).length = 4 := by simp [upper_length, hcc, hck]
        conv_lhs => rw [← this, List.drop_left]
      rw [← this]; simp [upper, List.map_drop]
    have e3 : (s.drop 2).take 2 = ck := by
      have hx : upper ((s.drop 2).take 2) = ck := by
        have : ((upper s).drop 2).take 2 = ck := by
          rw [hu, hi, List.append_assoc]
          have h2 : (upper cc).length = 2 := by rw [upper_length]; exact hcc
          conv_lhs => rw [← h2, List.drop_left]
          rw [h2, ← hck, List.take_left]
        rw [← this]; simp [upper, List.map_take, List.map_drop]
      rw [← hx]
      conv_lhs => rw [← List.map_id ((s.drop 2).take 2)]
      unfold upper
      apply List.map_congr_left
      intro x hxm
      have : isDigit (upperByte x) = true := hdig _ (by rw [← hx]; exact List.mem_map_of_mem hxm)
      exact (upperByte_digit_iff x this).symm
    unfold from_ slice from'
    rw [if_pos (by omega), if_pos (by omega), if_pos hlen]
    simp only [Outcome.bind, List.drop_zero, Nat.sub_zero]
    have hn2 : new (s.take 2) (s.drop 4) = .ok i := by rw [← new_upper, e1, e2, new_upper, hn]
    rw [hn2]
    simp only
    rw [hi, proofNumber_parts (by rw [upper_length]; exact hcc) hck]
    simp [e3]

/-- C46: a constructed IBAN is accepted unchanged. -/
theorem C46_roundtrip {cc b i : Bytes} (h : new cc b = .ok i) : from_ i = .ok i := by
  rw [C46_from]
  refine ⟨⟨cc, b, h⟩, ?_⟩
  obtain ⟨ck, rfl, _, hdig, _⟩ := new_parts h
  have hcu : upper ck = ck := upper_of_alnum fun x hx => Or.inl ((isDigit_iff x).1 (hdig x hx))
  rw [upper_append, upper_append, upper_idem, upper_idem, hcu]

/-- C46: `From` panics exactly for inputs of less than four bytes. -/
theorem C46_panic (s : Bytes) : from_ s = .panic ↔ s.length < 4 := by
  unfold from_ slice from'
  by_cases hl : 4 ≤ s.length
  · rw [if_pos (by omega), if_pos (by omega), if_pos hl]
    simp only [Outcome.bind, List.drop_zero, Nat.sub_zero]
    have hnp := (C45_accepts (s.take 2) (s.drop 4)).1
    cases hn : new (s.take 2) (s.drop 4) with
    | err => simp; omega
    | panic => exact absurd hn hnp
    | ok j =>
      obtain ⟨ck, hj, hck, _, hcc⟩ := new_parts hn
      simp only [hj, proofNumber_parts (by rw [upper_length]; exact hcc : (upper (s.take 2)).length = 2) hck]
      split <;> simp <;> omega
  · by_cases h2 : 2 ≤ s.length
    · rw [if_pos h2, if_neg hl]; simp; omega
    · rw [if_neg h2]; simp; omega

/-- C46: what `From` returns is valid, except behind a minus sign. -/
theorem C46_valid {s i : Bytes} (h : from_ s = .ok i) (hm : ∀ r, s.drop 4 ≠ 45 :: r) :
    valid i = .ok true ∧ isValid s = .ok true := by
  have hv : valid i = .ok true := by
    obtain ⟨⟨cc, b, hn⟩, hu⟩ := (C46_from s i).1 h
    obtain ⟨h2, hc, hne, hl, sg, r, hb, hsg, hr⟩ := (C45_accepts cc b).2.1 ⟨i, hn⟩
    obtain ⟨ck, hi, hck, hdig, hcc⟩ := new_parts hn
    have hdrop : upper (s.drop 4) = upper b := by
      have : (upper s).drop 4 = upper b := by
        rw [hu, hi]
        have : (upper cc ++ ck).length = 4 := by simp [upper_length, hcc, hck]
        conv_lhs => rw [← this, List.drop_left]
      rw [← this]; simp [upper, List.map_drop]
    have hsg' : sg = [] ∨ sg = [43] := by
      have hsign : ∀ c : Byte, (c = 45 ∨ c = 43) → b = c :: r → ∃ r', s.drop 4 = c :: r' := by
        intro c hc he
        rw [he] at hdrop
        have e : upper (c :: r) = upperByte c :: upper r := rfl
        rw [e] at hdrop
        cases hd : s.drop 4 with
        | nil => rw [hd] at hdrop; cases hdrop
        | cons d r' =>
          rw [hd] at hdrop
          have : upperByte d = upperByte c := (List.cons.inj hdrop).1
          rw [(upperByte_sign c c hc).2 rfl] at this
          exact ⟨r', by rw [(upperByte_sign d c hc).1 this]⟩
      rcases hsg with rfl | rfl | rfl
      · exact Or.inl rfl
      · exact Or.inr rfl
      · obtain ⟨r', hr'⟩ := hsign 45 (Or.inl rfl) hb
        exact absurd hr' (hm r')
    rcases hsg' with rfl | rfl
    · rw [List.nil_append] at hb
      subst hb
      obtain ⟨ck', hn', _, _, _, _, _, hval⟩ := C45_new h2 hc hne hr hl
      rw [hn] at hn'
      simp only [Outcome.ok.injEq] at hn'
      rw [hn']
      exact hval
    · rw [hb] at hn
      exact C45_plus hn
  refine ⟨hv, ?_⟩
  unfold isValid
  rw [h]
  exact hv

/-- C46: `Valid` and `From` disagree: check digits 01 stand for the same remainder as
98, which is what `New` computes. -/
theorem C46_alternate : valid b!"DE9848" = .ok true ∧ from_ b!"DE9848" = .ok b!"DE9848" ∧
    valid b!"DE0148" = .ok true ∧ from_ b!"DE0148" = .err ∧ isValid b!"DE0148" = .ok false := by decide +kernel

/-! ## C47: error detection -/

theorem number_cons {x : Byte} {s : Bytes} (hx : IbanChar x) (hs : ∀ b ∈ s, IbanChar b) :
    number (x :: s) = charValue x * 10 ^ places s + number s := by
  have := number_append (s := [x]) (t := s) (by simpa using hx) hs
  simpa [number] using this

theorem places_cons (x : Byte) (s : Bytes) (hx : IbanChar x) : 10 ^ places (x :: s) = weight x * 10 ^ places s := by
  unfold places
  rw [lettersToDigits_cons, List.length_append, pow_add, (letter_digits x hx).2.2.2]

instance (b : Byte) : Decidable (Digit b) := by unfold Digit; infer_instance

theorem charValue_bounds {x : Byte} (h : IbanChar x) : (Digit x ∧ charValue x ≤ 9 ∧ weight x = 10) ∨
    (¬ Digit x ∧ 10 ≤ charValue x ∧ charValue x ≤ 35 ∧ weight x = 100) := by
  revert x; decide +kernel

theorem charValue_inj {x y : Byte} (hx : IbanChar x) (hy : IbanChar y) (h : charValue x = charValue y) : x = y := by
  have ex : ∀ b : Byte, IbanChar b → b = if charValue b ≤ 9 then UInt8.ofNat (charValue b + 48) else UInt8.ofNat (charValue b + 55) := by
    decide +kernel
  rw [ex x hx, ex y hy, h]

theorem prime97 : Prime (97 : ℤ) := Nat.prime_iff_prime_int.1 (by norm_num)

theorem not_dvd_ten_pow (k : Nat) : ¬ (97 : ℤ) ∣ 10 ^ k := by
  intro h
  have := prime97.dvd_of_dvd_pow h
  omega

/-- Two numbers with the same remainder whose difference is `d` scaled by powers of ten. -/
theorem cancel {k : Nat} {d : ℤ} (h : (97 : ℤ) ∣ d * 10 ^ k * 100) : (97 : ℤ) ∣ d := by
  rcases prime97.dvd_or_dvd h with h | h
  · rcases prime97.dvd_or_dvd h with h | h
    · exact h
    · exact absurd h (not_dvd_ten_pow k)
  · omega

/-- The parts of a well-formed IBAN. -/
structure WellFormed (cc p b : Bytes) : Prop where
  country : cc.length = 2 ∧ ∀ x ∈ cc, IbanChar x
  proof : p.length = 2 ∧ DigitString p
  bban : ∀ x ∈ b, IbanChar x

theorem valid_iff {cc p b : Bytes} (h : WellFormed cc p b) :
    valid (cc ++ p ++ b) = .ok true ↔ b.length ≤ 30 ∧ (number (b ++ cc) * 100 + value p) % 97 = 1 := by
  rw [C45_valid h.country.1 h.proof.1 (fun x hx => Or.inl (h.country.2 x hx)) h.proof.2 (fun x hx => Or.inl (h.bban x hx)),
    upper_of_alnum h.bban, upper_of_alnum h.country.2]
  simp

theorem mod_sub {a b : Nat} {c : Nat} (h1 : (a * 100 + c) % 97 = 1) (h2 : (b * 100 + c) % 97 = 1) :
    (97 : ℤ) ∣ ((a : ℤ) - b) * 100 := by omega

/-- C47: if two valid IBANs differ at most in one character of the BBAN, where both
have a digit or both a letter, they are equal.  Hence mistyping a digit as another digit
or a letter as another letter is always detected. -/
theorem C47_substitution {cc p a q : Bytes} {x y : Byte} (hx : WellFormed cc p (a ++ x :: q))
    (hy : WellFormed cc p (a ++ y :: q)) (hw : Digit x ↔ Digit y)
    (h1 : valid (cc ++ p ++ (a ++ x :: q)) = .ok true) (h2 : valid (cc ++ p ++ (a ++ y :: q)) = .ok true) : x = y := by
  have m1 := ((valid_iff hx).1 h1).2
  have m2 := ((valid_iff hy).1 h2).2
  have cx : IbanChar x := hx.bban x (by simp)
  have cy : IbanChar y := hy.bban y (by simp)
  have ca : ∀ z ∈ a, IbanChar z := fun z hz => hx.bban z (by simp [hz])
  have ct : ∀ z ∈ q ++ cc, IbanChar z := by
    intro z hz
    rcases List.mem_append.1 hz with h | h
    · exact hx.bban z (by simp [h])
    · exact hx.country.2 z h
  have hd := mod_sub m1 m2
  have e : ∀ z, IbanChar z → number (a ++ z :: q ++ cc) =
      number a * (weight z * 10 ^ places (q ++ cc)) + (charValue z * 10 ^ places (q ++ cc) + number (q ++ cc)) := by
    intro z hz
    rw [List.append_assoc, List.cons_append, number_append ca (by
      intro w hw
      rcases List.mem_cons.1 hw with rfl | hw
      · exact hz
      · exact ct w hw), number_cons hz ct, places_cons z _ hz]
  rw [e x cx, e y cy] at hd
  have bx := charValue_bounds cx
  have byy := charValue_bounds cy
  have hwt : weight x = weight y := by
    rcases bx with bx | bx <;> rcases byy with byy | byy
    · rw [bx.2.2, byy.2.2]
    · exact absurd (hw.1 bx.1) byy.1
    · exact absurd (hw.2 byy.1) bx.1
    · rw [bx.2.2.2, byy.2.2.2]
  rw [hwt] at hd
  push_cast at hd
  have hd' : (97 : ℤ) ∣ ((charValue x : ℤ) - charValue y) * 10 ^ places (q ++ cc) * 100 := by
    have he : ((charValue x : ℤ) - charValue y) * 10 ^ places (q ++ cc) * 100 =
        ((number a * (weight y * 10 ^ places (q ++ cc)) + (charValue x * 10 ^ places (q ++ cc) + number (q ++ cc)) : ℤ) -
          (number a * (weight y * 10 ^ places (q ++ cc)) + (charValue y * 10 ^ places (q ++ cc) + number (q ++ cc)))) * 100 := by
      ring
    rw [he]
    exact hd
  have hc := cancel hd'
  apply charValue_inj cx cy
  clear hd' hd e m1 m2 h1 h2 hwt hx hy
  rcases bx with bx | bx <;> rcases byy with byy | byy <;> omega

/-- C47: swapping two adjacent characters of the BBAN of a valid IBAN is detected,
except for equal characters and the pairs B and 1, M and 2, X and 3. -/
theorem C47_transposition {cc p a q : Bytes} {x y : Byte} (hx : WellFormed cc p (a ++ x :: y :: q))
    (h1 : valid (cc ++ p ++ (a ++ x :: y :: q)) = .ok true) :
    valid (cc ++ p ++ (a ++ y :: x :: q)) = .ok true ↔
      x = y ∨ (¬ Digit x ∧ Digit y ∧ charValue x = 11 * charValue y) ∨ (Digit x ∧ ¬ Digit y ∧ charValue y = 11 * charValue x) := by
  have hy : WellFormed cc p (a ++ y :: x :: q) := ⟨hx.country, hx.proof, by
    intro z hz
    apply hx.bban
    simp only [List.mem_append, List.mem_cons] at hz ⊢
    tauto⟩
  obtain ⟨ml, m1⟩ := (valid_iff hx).1 h1
  rw [valid_iff hy]
  have hlen : (a ++ y :: x :: q).length ≤ 30 := by simpa using ml
  have cx : IbanChar x := hx.bban x (by simp)
  have cy : IbanChar y := hx.bban y (by simp)
  have ca : ∀ z ∈ a, IbanChar z := fun z hz => hx.bban z (by simp [hz])
  have ct : ∀ z ∈ q ++ cc, IbanChar z := by
    intro z hz
    rcases List.mem_append.1 hz with h | h
    · exact hx.bban z (by simp [h])
    · exact hx.country.2 z h
  have e : ∀ z w, IbanChar z → IbanChar w → number (a ++ z :: w :: q ++ cc) =
      number a * (weight z * (weight w * 10 ^ places (q ++ cc))) + (charValue z * (weight w * 10 ^ places (q ++ cc)) +
        (charValue w * 10 ^ places (q ++ cc) + number (q ++ cc))) := by
    intro z w hz hw
    have hwq : ∀ v ∈ w :: (q ++ cc), IbanChar v := by
      intro v hv
      rcases List.mem_cons.1 hv with rfl | hv
      · exact hw
      · exact ct v hv
    rw [List.append_assoc, List.cons_append, List.cons_append, number_append ca (by
      intro v hv
      rcases List.mem_cons.1 hv with rfl | hv
      · exact hz
      · exact hwq v hv), number_cons hz hwq, number_cons hw ct, places_cons z _ hz, places_cons w _ hw]
  have bx := charValue_bounds cx
  have byy := charValue_bounds cy
  -- difference of the two numbers
  have hdiff : (number (a ++ x :: y :: q ++ cc) : ℤ) - number (a ++ y :: x :: q ++ cc) =
      ((charValue x : ℤ) * (weight y - 1) - charValue y * (weight x - 1)) * 10 ^ places (q ++ cc) := by
    rw [e x y cx cy, e y x cy cx]
    push_cast
    ring
  constructor
  · rintro ⟨_, m2⟩
    have hd := mod_sub m1 m2
    rw [hdiff] at hd
    have := cancel hd
    rcases bx with bx | bx <;> rcases byy with byy | byy
    · left
      apply charValue_inj cx cy
      rw [bx.2.2, byy.2.2] at this
      push_cast at this
      omega
    · right; right
      refine ⟨bx.1, byy.1, ?_⟩
      rw [bx.2.2, byy.2.2.2] at this
      push_cast at this
      omega
    · right; left
      refine ⟨bx.1, byy.1, ?_⟩
      rw [bx.2.2.2, byy.2.2] at this
      push_cast at this
      omega
    · left
      apply charValue_inj cx cy
      rw [bx.2.2.2, byy.2.2.2] at this
      push_cast at this
      omega
  · intro h
    refine ⟨hlen, ?_⟩
    have hz : ((charValue x : ℤ) * (weight y - 1) - charValue y * (weight x - 1)) = 0 := by
      rcases h with rfl | ⟨h1, h2, h3⟩ | ⟨h1, h2, h3⟩
      · ring
      · rcases bx with bx | bx <;> rcases byy with byy | byy
        · exact absurd bx.1 h1
        · exact absurd bx.1 h1
        · rw [bx.2.2.2, byy.2.2]; push_cast; omega
        · exact absurd h2 byy.1
      · rcases bx with bx | bx <;> rcases byy with byy | byy
        · exact absurd byy.1 h2
        · rw [bx.2.2, byy.2.2.2]; push_cast; omega
        · exact absurd h1 bx.1
        · exact absurd h1 bx.1
    rw [hz, zero_mul] at hdiff
    have : number (a ++ y :: x :: q ++ cc) = number (a ++ x :: y :: q ++ cc) := by omega
    rw [this]
    exact m1

/-- C47: replacing the check digits is detected unless they agree modulo 97. -/
theorem C47_check_digits {cc p p' b : Bytes} (h : WellFormed cc p b) (h' : WellFormed cc p' b)
    (h1 : valid (cc ++ p ++ b) = .ok true) :
    valid (cc ++ p' ++ b) = .ok true ↔ value p % 97 = value p' % 97 := by
  obtain ⟨ml, m1⟩ := (valid_iff h).1 h1
  rw [valid_iff h']
  constructor
  · rintro ⟨_, m2⟩; omega
  · intro hm; exact ⟨ml, by omega⟩

/-- C47: the undetected transposition. -/
theorem C47_undetected : new b!"GB" b!"B1" = .ok b!"GB28B1" ∧ valid b!"GB28B1" = .ok true ∧
    valid b!"GB281B" = .ok true := by decide +kernel

/-- Non-vacuity of C47. -/
example : WellFormed b!"DE" b!"44" (b!"50010517540732493" ++ 49 :: []) ∧
    valid (b!"DE" ++ b!"44" ++ (b!"50010517540732493" ++ 49 :: [])) = .ok true := by
  refine ⟨⟨⟨rfl, by decide +kernel⟩, ⟨rfl, by decide, by decide +kernel⟩, by decide +kernel⟩, by decide +kernel⟩

/-! ## C48: printing and accessors -/

/-- C48: country code, proof number and BBAN are the IBAN cut in three. -/
theorem C48_accessors (i : Bytes) :
    (4 ≤ i.length → ∃ cc p b, countryCode i = .ok cc ∧ proofNumber i = .ok p ∧ bban i = .ok b ∧ i = cc ++ p ++ b ∧
      cc.length = 2 ∧ p.length = 2) ∧
    (i.length < 4 → bban i = .panic ∧ proofNumber i = .panic) ∧ (i.length < 2 → countryCode i = .panic) := by
  refine ⟨?_, ?_, ?_⟩
  · intro h
    refine ⟨i.take 2, (i.drop 2).take 2, i.drop 4, ?_, ?_, ?_, ?_, ?_, ?_⟩
    · unfold countryCode slice; rw [if_pos (by omega)]; rfl
    · unfold proofNumber slice; rw [if_pos h]
    · unfold bban from'; rw [if_pos h]
    · have : (i.drop 2).take 2 ++ (i.drop 2).drop 2 = i.drop 2 := List.take_append_drop _ _
      rw [List.drop_drop] at this
      rw [List.append_assoc, this, List.take_append_drop]
    · simp; omega
    · simp; omega
  · intro h
    constructor
    · unfold bban from'; rw [if_neg (by omega)]
    · unfold proofNumber slice; rw [if_neg (by omega)]
  · intro h
    unfold countryCode slice; rw [if_neg (by omega)]

/-- No ASCII white space. -/
def NoSpace (s : Bytes) : Prop := ∀ b ∈ s, isSpace b = false

theorem dropWhile_head {s : Bytes} (h : NoSpace s) (r : Bytes) (hs : s ≠ []) : (s ++ r).dropWhile isSpace = s ++ r := by
  cases s with
  | nil => exact absurd rfl hs
  | cons a s => rw [List.cons_append, List.dropWhile_cons_of_neg (by simp [h a (by simp)])]

/-- Cut white space at the end. -/
def cutEnd (s : Bytes) : Bytes := (s.reverse.dropWhile isSpace).reverse

theorem cutEnd_spaces (s : Bytes) (n : Nat) (hs : s.getLast? ≠ none → ∀ b, s.getLast? = some b → isSpace b = false) :
    cutEnd (s ++ List.replicate n 32) = s := by
  unfold cutEnd
  rw [List.reverse_append, List.reverse_replicate, List.dropWhile_append_of_pos (by
    intro a ha; rw [List.eq_of_mem_replicate ha]; rfl)]
  rcases List.eq_nil_or_concat s with rfl | ⟨w, c, rfl⟩
  · rfl
  · rw [List.concat_eq_append, List.reverse_append]
    have : isSpace c = false := hs (by simp) c (by simp)
    simp [this]

theorem cutEnd_cons_append (a s : Bytes) (hs : cutEnd s ≠ []) : cutEnd (a ++ s) = a ++ cutEnd s := by
  unfold cutEnd at hs ⊢
  rw [List.reverse_append, List.dropWhile_append]
  have : (s.reverse.dropWhile isSpace).isEmpty = false := by
    cases h : s.reverse.dropWhile isSpace with
    | nil => rw [h] at hs; simp at hs
    | cons _ _ => rfl
  simp [this]

theorem grouped_ne_nil {s out : Bytes} (h : Grouped s out) (hs : s ≠ []) : out ≠ [] := by
  cases h with
  | last _ => exact hs
  | more h1 _ _ => intro h; simp at h

theorem printLoop_grouped : ∀ (n : Nat) (s : Bytes), s.length ≤ n → s ≠ [] → NoSpace s →
    Grouped s (cutEnd (printLoop (padFour s))) := by
  intro n
  induction n with
  | zero =>
    intro s h hs
    exact absurd (List.length_eq_zero_iff.1 (by omega)) hs
  | succ n ih =>
    intro s h hs hn
    have hspace : ∀ b, s.getLast? = some b → isSpace b = false := fun b hb => hn b (List.mem_of_getLast? hb)
    match s, h, hs, hn, hspace with
    | [a], _, _, _, hsp =>
      have : cutEnd (printLoop (padFour [a])) = [a] := cutEnd_spaces [a] 4 (fun _ => hsp)
      rw [this]; exact .last (by simp)
    | [a, b], _, _, _, hsp =>
      have : cutEnd (printLoop (padFour [a, b])) = [a, b] := cutEnd_spaces [a, b] 3 (fun _ => hsp)
      rw [this]; exact .last (by simp)
    | [a, b, c], _, _, _, hsp =>
      have : cutEnd (printLoop (padFour [a, b, c])) = [a, b, c] := cutEnd_spaces [a, b, c] 2 (fun _ => hsp)
      rw [this]; exact .last (by simp)
    | [a, b, c, d], _, _, _, hsp =>
      have e : printLoop (padFour [a, b, c, d]) = [a, b, c, d] ++ List.replicate 1 32 := by simp [padFour, printLoop]
      have : cutEnd (printLoop (padFour [a, b, c, d])) = [a, b, c, d] := by rw [e]; exact cutEnd_spaces [a, b, c, d] 1 (fun _ => hsp)
      rw [this]; exact .last (by simp)
    | a :: b :: c :: d :: e :: r, h, _, hn, _ =>
      have hrne : (e :: r) ≠ [] := by simp
      have hr := ih (e :: r) (by simp only [List.length_cons] at h ⊢; omega) hrne (fun x hx => hn x (by simp at hx ⊢; tauto))
      have hpad : padFour (a :: b :: c :: d :: e :: r) = a :: b :: c :: d :: padFour (e :: r) := by
        unfold padFour
        have : (a :: b :: c :: d :: e :: r).length % 4 = (e :: r).length % 4 := by
          simp only [List.length_cons]; omega
        rw [this]; rfl
      have hne := grouped_ne_nil hr hrne
      rw [hpad]
      have e1 : printLoop (a :: b :: c :: d :: padFour (e :: r)) = [a, b, c, d, 32] ++ printLoop (padFour (e :: r)) := rfl
      rw [e1, cutEnd_cons_append _ _ hne]
      have e2 : [a, b, c, d, 32] ++ cutEnd (printLoop (padFour (e :: r))) =
        [a, b, c, d] ++ 32 :: cutEnd (printLoop (padFour (e :: r))) := rfl
      have e3 : a :: b :: c :: d :: e :: r = [a, b, c, d] ++ e :: r := rfl
      rw [e2, e3]
      exact .more rfl hrne hr

/-- C48: printing an IBAN without white space inserts a blank after every fourth
character. -/
theorem C48_print {i : Bytes} (h : NoSpace i) : Grouped i (print i) := by
  cases i with
  | nil => exact .last (by simp)
  | cons a r =>
    have hg := printLoop_grouped _ (a :: r) (Nat.le_refl _) (by simp) h
    have : print (a :: r) = cutEnd (printLoop (padFour (a :: r))) := by
      unfold print cutEnd
      have : ∃ t, printLoop (padFour (a :: r)) = a :: t := by
        match r with
        | [] => exact ⟨_, rfl⟩
        | [b] => exact ⟨_, rfl⟩
        | [b, c] => exact ⟨_, rfl⟩
        | b :: c :: d :: r => exact ⟨_, rfl⟩
      obtain ⟨t, ht⟩ := this
      rw [ht, List.dropWhile_cons_of_neg (by simp [h a (by simp)])]
    rw [this]
    exact hg

/-- C48: removing the blanks gives the IBAN back. -/
theorem C48_blanks {i : Bytes} (h : NoSpace i) : (print i).filter (· != 32) = i := by
  have hg := C48_print h
  have hno : ∀ s : Bytes, NoSpace s → s.filter (· != 32) = s := by
    intro s hs
    rw [List.filter_eq_self]
    intro b hb
    have := hs b hb
    unfold isSpace at this
    simp at this
    simp [this.1]
  generalize print i = out at hg
  induction hg with
  | last _ => exact hno _ h
  | @more a r out h1 _ _ ih =>
    have ha : NoSpace a := fun b hb => h b (by simp [hb])
    have hr : NoSpace r := fun b hb => h b (by simp [hb])
    rw [List.filter_append, List.filter_cons_of_neg (by simp), hno a ha, ih hr]

/-- Non-vacuity of C48. -/
example : print b!"DE44500105175407324931" = b!"DE44 5001 0517 5407 3249 31" ∧ NoSpace b!"DE44500105175407324931" := by
  refine ⟨by decide +kernel, ?_⟩
  unfold NoSpace
  decide +kernel

/-! ## C49: German IBANs -/

/-- C49: an eight digit bank ID and an account number of up to ten digits give a valid
IBAN from which both can be recovered, the account without leading zeros.  It has the
22 characters of a German IBAN exactly for account numbers of nine or ten digits. -/
theorem C49_german {bank acc : Bytes} (hb : bank.length = 8) (hbd : ∀ x ∈ bank, Digit x) (ha : acc.length ≤ 10)
    (had : ∀ x ∈ acc, Digit x) :
    ∃ i, newGerman bank acc = .ok i ∧ valid i = .ok true ∧ bankID i = .ok bank ∧
      accountID i = .ok (acc.dropWhile (· == 48)) ∧ countryCode i = .ok b!"DE" ∧
      (i.length = 22 ↔ acc.length = 9 ∨ acc.length = 10) := by
  set a' := if acc.length = 10 - 1 then 48 :: acc else acc with ha'
  have ha'd : ∀ x ∈ a', Digit x := by
    intro x hx
    rw [ha'] at hx
    split at hx
    · rcases List.mem_cons.1 hx with rfl | hx
      · unfold Digit; decide
      · exact had x hx
    · exact had x hx
  have ha'l : a'.length ≤ 10 := by
    rw [ha']
    split
    · simp only [List.length_cons]; omega
    · exact ha
  have hdc : ∀ x ∈ bank ++ a', IbanChar x := by
    intro x hx
    rcases List.mem_append.1 hx with hx | hx
    · exact Or.inl (hbd x hx)
    · exact Or.inl (ha'd x hx)
  have hml : maxLength (upper b!"DE") = 22 := by decide +kernel
  obtain ⟨ck, h1, h2, h3, _, _, _, h4⟩ := C45_new (cc := b!"DE") (b := bank ++ a') rfl (by decide +kernel)
    (by intro h; simp [List.append_eq_nil_iff] at h; rw [h.1] at hb; simp at hb)
    (fun x hx => Or.inl (hdc x hx)) (by rw [hml]; simp only [List.length_append]; omega)
  have hup : upper b!"DE" = b!"DE" := rfl
  rw [hup, upper_of_alnum hdc] at h1 h4
  refine ⟨_, h1, h4, ?_, ?_, ?_, ?_⟩
  · unfold bankID slice
    have hl4 : (b!"DE" ++ ck).length = 4 := by simp [h2]
    rw [if_pos (by simp only [List.length_append] at hl4 ⊢; omega), ← hl4, List.drop_left, hl4,
      show (12 - 4) = bank.length by omega, List.take_left]
  · unfold accountID from'
    have hl12 : (b!"DE" ++ ck ++ bank).length = 12 := by simp [h2, hb]
    rw [← List.append_assoc, if_pos (by rw [List.length_append]; omega), ← hl12, List.drop_left]
    simp only [Outcome.map', Outcome.ok.injEq]
    rw [ha']
    split
    · rw [List.dropWhile_cons_of_pos (by rfl)]
    · rfl
  · unfold countryCode slice
    rw [if_pos (by simp [h2])]
    rfl
  · have hla : a'.length = if acc.length = 9 then 10 else acc.length := by
      rw [ha']; split <;> simp [*]
    simp only [List.length_append, List.length_cons, List.length_nil, h2, hb, hla]
    split <;> omega

/-- Non-vacuity of C49: nine digits are fine, eight give a too short IBAN. -/
example : newGerman b!"10000000" b!"012345678" = .ok b!"DE93100000000012345678" ∧
    (∃ i, newGerman b!"10000000" b!"12345678" = .ok i ∧ i.length = 20) := by
  refine ⟨by decide +kernel, b!"DE981000000012345678", by decide +kernel⟩

end Verif.Iban

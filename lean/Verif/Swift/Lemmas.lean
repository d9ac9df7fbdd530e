import Verif.Swift.Scan
import Verif.Swift.Spec
import Verif.Swift.Extract
import Verif.Token.Lemmas

/-
Runs of the SWIFT scanner.
-/

namespace Verif.Swift

open Token (Typ Token Drain isDig digits_cases takeWhile_all)
open Token.Spec (Digit DigitString values)
open Spec

/-- From state `st` at position `pos`, the tokens `ts` are read off `rest`, and `r` is left
in state `st'`. -/
inductive Run : St → Nat → Bytes → List Token → St → Bytes → Prop where
  | nil (st : St) (pos : Nat) (r : Bytes) : Run st pos r [] st r
  | cons {st : St} {pos : Nat} {rest : Bytes} {t : Typ} {k : Nat} {st1 : St} {ts : List Token} {st' : St} {r : Bytes} :
      lexOne st rest = .tok t k st1 → Run st1 (pos + k) (rest.drop k) ts st' r →
      Run st pos rest (⟨t, rest.take k, pos⟩ :: ts) st' r

theorem Run.values_append {st : St} {pos : Nat} {rest : Bytes} {ts : List Token} {st' : St} {r : Bytes}
    (h : Run st pos rest ts st' r) : values ts ++ r = rest := by
  induction h with
  | nil => simp [values]
  | cons h1 _ ih =>
    simp only [values, List.map_cons, List.flatten_cons, List.append_assoc] at ih ⊢
    rw [ih, List.take_append_drop]

/-- The scanner runs, and ends with EOF or an error. -/
theorem scan_run (st : St) (pos : Nat) (rest : Bytes) : ∃ ts st' r, Run st pos rest ts st' r ∧
    ((∃ k, lexOne st' r = .stop k ∧ scan st pos rest = .done (ts ++ [⟨.eof, r.take k, pos + (values ts).length⟩])) ∨
     (∃ m, lexOne st' r = .err m ∧ scan st pos rest = .done (ts ++ [⟨.error, m, pos + (values ts).length⟩]))) := by
  induction hn : rest.length using Nat.strongRecOn generalizing st pos rest with
  | ind n ih =>
    rw [scan_eq]
    cases h : lexOne st rest with
    | stop k => exact ⟨[], st, rest, .nil _ _ _, Or.inl ⟨k, h, by simp [values]⟩⟩
    | err m => exact ⟨[], st, rest, .nil _ _ _, Or.inr ⟨m, h, by simp [values]⟩⟩
    | tok t k st1 =>
      obtain ⟨h1, h2, _⟩ := lexOne_tok h
      obtain ⟨ts, st', r, hr, h3⟩ := ih (rest.drop k).length (by simp; omega) st1 (pos + k) (rest.drop k) rfl
      refine ⟨_, st', r, .cons h hr, ?_⟩
      have hl : pos + (values (⟨t, rest.take k, pos⟩ :: ts)).length = pos + k + (values ts).length := by
        simp [values, Nat.min_eq_left h2]
        omega
      rw [hl]
      rcases h3 with ⟨j, h3, h4⟩ | ⟨m, h3, h4⟩
      · exact Or.inl ⟨j, h3, by simp only [h4]; rfl⟩
      · exact Or.inr ⟨m, h3, by simp only [h4]; rfl⟩

theorem Run.append {st : St} {pos : Nat} {rest : Bytes} {ts : List Token} {st1 : St} {r1 : Bytes} {us : List Token} {st' : St}
    {r : Bytes} (h : Run st pos rest ts st1 r1) (h2 : Run st1 (pos + (values ts).length) r1 us st' r) :
    Run st pos rest (ts ++ us) st' r := by
  induction h with
  | nil => simpa [values] using h2
  | @cons st pos rest t k st2 ts st1 r1 h3 h4 ih =>
    refine .cons h3 (ih ?_)
    obtain ⟨_, h5, _⟩ := lexOne_tok h3
    have : pos + (values (⟨t, rest.take k, pos⟩ :: ts)).length = pos + k + (values ts).length := by
      simp [values, Nat.min_eq_left h5]
      omega
    rwa [this] at h2

theorem run_scan {st : St} {pos : Nat} {rest : Bytes} {ts : List Token} {st' : St} {r : Bytes}
    (h : Run st pos rest ts st' r) :
    scan st pos rest = match scan st' (pos + (values ts).length) r with
      | .done us => .done (ts ++ us)
      | .panic us => .panic (ts ++ us)
      | .blocked us => .blocked (ts ++ us)
      | .timeout us => .timeout (ts ++ us) := by
  induction h with
  | nil st pos r => 
    simp only [values, List.map_nil, List.flatten_nil, List.length_nil, Nat.add_zero, List.nil_append]
    cases scan st pos r <;> rfl
  | @cons st pos rest t k st2 ts st1 r1 h3 h4 ih =>
    rw [scan_eq, h3]
    simp only
    rw [ih]
    obtain ⟨_, h5, _⟩ := lexOne_tok h3
    have : pos + (values (⟨t, rest.take k, pos⟩ :: ts)).length = pos + k + (values ts).length := by
      simp [values, Nat.min_eq_left h5]
      omega
    rw [this]
    cases scan st1 (pos + k + (values ts).length) r1 <;> rfl

theorem Run.not_end {st : St} {pos : Nat} {rest : Bytes} {ts : List Token} {st' : St} {r : Bytes}
    (h : Run st pos rest ts st' r) : ∀ before t after, ts = before ++ t :: after →
      t.pos = pos + (values before).length ∧ ∃ st1 st2 x k, lexOne st1 x = .tok t.typ k st2 ∧ t.val = x.take k ∧
        Run st2 (t.pos + t.val.length) (x.drop k) after st' r := by
  induction h with
  | nil => intro before t after he; simp at he
  | @cons st pos rest typ k st2 ts st1 r1 h3 h4 ih =>
    intro before t after he
    obtain ⟨_, h5, _⟩ := lexOne_tok h3
    cases before with
    | nil =>
      simp only [List.nil_append, List.cons.injEq] at he
      obtain ⟨rfl, rfl⟩ := he
      refine ⟨by simp [values], st, st2, rest, k, h3, rfl, ?_⟩
      simpa [Nat.min_eq_left h5] using h4
    | cons b before =>
      simp only [List.cons_append, List.cons.injEq] at he
      obtain ⟨rfl, he⟩ := he
      obtain ⟨a, b⟩ := ih before t after he
      refine ⟨?_, b⟩
      rw [a]
      simp [values, Nat.min_eq_left h5]
      omega

/-! ## The kinds of tokens -/

theorem isDig_iff (b : Byte) : isDig b = true ↔ Digit b := by
  unfold isDig
  rw [Token.contains_digits]
  unfold Digit
  simp only [UInt8.le_iff_toNat_le]
  exact Iff.rfl

theorem isNum_digit (b : Byte) : isNum b = true ↔ Digit b := by rw [isNum_iff, isDig_iff]

theorem isUpper_iff (b : Byte) : isUpper b = true ↔ Upper b := by
  unfold isUpper Upper
  simp only [Bool.and_eq_true, decide_eq_true_eq, UInt8.le_iff_toNat_le]
  exact Iff.rfl

theorem boundary_iff (rest : Bytes) : boundary rest = true ↔ EndsValue rest := by
  unfold boundary EndsValue
  split
  · rename_i r
    simp only [boundaryTail, Bool.or_eq_true, Bool.and_eq_true, beq_iff_eq, decide_eq_true_eq]
    constructor
    · intro h
      refine ⟨r, rfl, ?_⟩
      rcases h with ((h | h) | ⟨⟨h1, h2⟩, h3⟩) | h
      · refine Or.inr (Or.inl ⟨r.drop 2, ?_⟩)
        conv => lhs; rw [← List.take_append_drop 2 r, h]
        rfl
      · refine Or.inr (Or.inr (Or.inl ⟨r.drop 3, ?_⟩))
        conv => lhs; rw [← List.take_append_drop 3 r, h]
        rfl
      · left
        match r, h1 with
        | a :: d :: x :: y, _ =>
          simp at h2 h3
          exact ⟨d, x, y, by rw [h2], (isNum_digit d).1 h3⟩
      · exact Or.inr (Or.inr (Or.inr h))
    · rintro ⟨r', he, h⟩
      simp only [List.cons_append, List.nil_append, List.cons.injEq, true_and] at he
      subst he
      rcases h with ⟨d, x, y, rfl, hd⟩ | ⟨x, rfl⟩ | ⟨x, rfl⟩ | rfl
      · left; right
        simp [(isNum_digit d).2 hd]
      · left; left; left; simp
      · left; left; right; simp
      · right; rfl
  · rename_i hne
    constructor
    · intro h; simp at h
    · rintro ⟨r, rfl, _⟩
      exact absurd rfl (hne r)

/-- What a token of each kind looks like. -/
def Kind (t : Typ) (v : Bytes) : Prop :=
  match t with
  | .swiftDatasetStart => v = [13, 10]
  | .swiftTagSeparator => v = [13, 10]
  | .swiftMessageSeparator => v = [13, 10, 45]
  | .swiftTag => TagId v
  | .swiftAlpha => v ≠ [] ∧ ∀ b ∈ v, Upper b
  | .swiftCharacter => v ≠ [] ∧ Plain v
  | .swiftNumeric => DigitString v
  | .swiftDecimal => Decimal v
  | .swiftAlphaNumeric => v ≠ []
  | _ => False

theorem scanAlnum_kind {k : Nat} {rest seen : Bytes} {t : Typ} {n : Nat} {st : St} (h : scanAlnum k rest = .tok t n st)
    (hk : seen.length = k) (hs : seen ≠ []) : Kind t ((seen ++ rest).take n) := by
  obtain ⟨h1, _, _, rfl, _⟩ := scanAlnum_tok h
  simp only [Kind]
  cases seen with
  | nil => exact absurd rfl hs
  | cons a seen =>
    cases n with
    | zero => simp at hk; omega
    | succ n => simp

theorem scanCharacter_kind {k : Nat} {rest : Bytes} : ∀ {seen : Bytes} {t : Typ} {n : Nat} {st : St},
    scanCharacter k rest = .tok t n st → seen.length = k → seen ≠ [] → Plain seen → Kind t ((seen ++ rest).take n) := by
  fun_induction scanCharacter k rest with
  | case1 => intro _ _ _ _ h; simp at h
  | case2 k r rest h1 ih =>
    intro seen t n st h hk hs hp
    have := ih (seen := seen ++ [r]) h (by simp [hk]) (by simp) (by
      intro b hb
      rcases List.mem_append.1 hb with hb | hb
      · exact hp b hb
      · simp at hb; rw [hb]; exact Or.inl ((isUpper_iff r).1 h1))
    simpa using this
  | case3 k r rest h1 h2 ih =>
    intro seen t n st h hk hs hp
    have := ih (seen := seen ++ [r]) h (by simp [hk]) (by simp) (by
      intro b hb
      rcases List.mem_append.1 hb with hb | hb
      · exact hp b hb
      · simp at hb; rw [hb]; exact Or.inr ((isNum_digit r).1 h2))
    simpa using this
  | case4 k r rest h1 h2 h3 =>
    intro seen t n st h hk hs hp
    simp only [One.tok.injEq] at h
    obtain ⟨rfl, rfl, rfl⟩ := h
    rw [← hk, List.take_left]
    exact ⟨hs, hp⟩
  | case5 => intro _ _ _ _ h; simp at h
  | case6 k r rest h1 h2 h3 h4 =>
    intro seen t n st h hk hs hp
    have := scanAlnum_kind (seen := seen ++ [r]) h (by simp [hk]) (by simp)
    simpa using this

theorem scanAlpha_kind {k : Nat} {rest : Bytes} : ∀ {seen : Bytes} {t : Typ} {n : Nat} {st : St},
    scanAlpha k rest = .tok t n st → seen.length = k → seen ≠ [] → (∀ b ∈ seen, Upper b) → Kind t ((seen ++ rest).take n) := by
  fun_induction scanAlpha k rest with
  | case1 => intro _ _ _ _ h; simp at h
  | case2 k r rest h1 ih =>
    intro seen t n st h hk hs hp
    have := ih (seen := seen ++ [r]) h (by simp [hk]) (by simp) (by
      intro b hb
      rcases List.mem_append.1 hb with hb | hb
      · exact hp b hb
      · simp at hb; rw [hb]; exact (isUpper_iff r).1 h1)
    simpa using this
  | case3 k r rest h1 h2 =>
    intro seen t n st h hk hs hp
    have := scanCharacter_kind (seen := seen ++ [r]) h (by simp [hk]) (by simp) (by
      intro b hb
      rcases List.mem_append.1 hb with hb | hb
      · exact Or.inl (hp b hb)
      · simp at hb; rw [hb]; exact Or.inr ((isNum_digit r).1 h2))
    simpa using this
  | case4 k r rest h1 h2 h3 =>
    intro seen t n st h hk hs hp
    simp only [One.tok.injEq] at h
    obtain ⟨rfl, rfl, rfl⟩ := h
    rw [← hk, List.take_left]
    exact ⟨hs, hp⟩
  | case5 => intro _ _ _ _ h; simp at h
  | case6 k r rest h1 h2 h3 h4 =>
    intro seen t n st h hk hs hp
    have := scanAlnum_kind (seen := seen ++ [r]) h (by simp [hk]) (by simp)
    simpa using this

theorem scanDigit_kind {r : Byte} {rest : Bytes} {t : Typ} {n : Nat} {st : St} (h : scanDigit 1 rest = .tok t n st)
    (hr : Digit r) : Kind t ((r :: rest).take n) := by
  unfold scanDigit at h
  rcases digits_cases rest with ⟨h1, h2⟩ | ⟨c, r', h1, h2, h3⟩
  · rw [h1] at h
    simp at h
  · rw [h1] at h
    simp only at h
    have hds : ∀ d ∈ rest.takeWhile isDig, Digit d := fun d hd => (isDig_iff d).1 (takeWhile_all d hd)
    generalize rest.takeWhile isDig = ds at *
    subst h3
    have hds' : DigitString (r :: ds) := ⟨by simp, by
      intro b hb
      rcases List.mem_cons.1 hb with rfl | hb
      · exact hr
      · exact hds b hb⟩
    split at h
    · rename_i h44
      simp only [beq_iff_eq] at h44
      subst h44
      unfold scanDecimal at h
      rcases digits_cases r' with ⟨k1, k2⟩ | ⟨c', r'', k1, k2, k3⟩
      · rw [k1] at h
        simp at h
      · rw [k1] at h
        simp only at h
        have hes : ∀ d ∈ r'.takeWhile isDig, Digit d := fun d hd => (isDig_iff d).1 (takeWhile_all d hd)
        generalize r'.takeWhile isDig = es at *
        subst k3
        split at h
        · simp only [One.tok.injEq] at h
          obtain ⟨rfl, rfl, rfl⟩ := h
          rw [show r :: (ds ++ 44 :: (es ++ c' :: r'')) = (r :: (ds ++ 44 :: es)) ++ c' :: r'' from by simp,
            List.take_left' (by simp; omega)]
          exact ⟨r :: ds, es, by simp, hds', hes⟩
        · have := scanAlnum_kind (seen := r :: (ds ++ 44 :: es)) h (by simp; omega) (by simp)
          simpa using this
    · unfold scanInteger at h
      split at h
      · simp only [One.tok.injEq] at h
        obtain ⟨rfl, rfl, rfl⟩ := h
        rw [show r :: (ds ++ c :: r') = (r :: ds) ++ c :: r' from by simp, List.take_left' (by simp; omega)]
        exact hds'
      · have := scanCharacter_kind (seen := r :: ds) h (by simp; omega) (by simp) (fun b hb => Or.inr (hds'.2 b hb))
        simpa using this

theorem scanTag_kind {rest : Bytes} {t : Typ} {n : Nat} {st : St} (h : scanTag rest = .tok t n st) :
    t = .swiftTag ∧ st = .start ∧ TagId (rest.take n) := by
  have key : ∀ (colon rest : Bytes) (k : Nat), (colon = [] ∨ colon = [58]) → k = colon.length →
      scanTagDigits k rest = .tok t n st → t = .swiftTag ∧ st = .start ∧ TagId ((colon ++ rest).take n) := by
    intro colon rest k hc hk h
    subst hk
    refine ⟨(scanTagDigits_tok h).2.2.1, (scanTagDigits_tok h).2.2.2, ?_⟩
    unfold scanTagDigits at h
    split at h
    · simp at h
    · rename_i c r
      split at h
      · rename_i hdig
        rcases digits_cases r with ⟨h1, h2⟩ | ⟨d, r', h1, h2, h3⟩
        · rw [h1] at h
          simp [scanTagEnd] at h
        · rw [h1] at h
          have hds : ∀ d ∈ r.takeWhile isDig, Digit d := fun d hd => (isDig_iff d).1 (takeWhile_all d hd)
          generalize r.takeWhile isDig = ds at *
          subst h3
          have hds' : DigitString (c :: ds) := ⟨by simp, by
            intro b hb
            rcases List.mem_cons.1 hb with rfl | hb
            · exact (isDig_iff _).1 hdig
            · exact hds b hb⟩
          simp only [scanTagEnd] at h
          split at h
          · rename_i h58
            simp only [beq_iff_eq] at h58
            subst h58
            simp only [One.tok.injEq] at h
            obtain ⟨rfl, rfl, rfl⟩ := h
            rw [show colon ++ c :: (ds ++ 58 :: r') = (colon ++ c :: ds ++ [58]) ++ r' from by simp,
              List.take_left' (by simp; omega)]
            exact ⟨colon, c :: ds, [], by simp, hc, hds', Or.inl rfl⟩
          · split at h
            · rename_i hx
              simp only [One.tok.injEq] at h
              obtain ⟨rfl, rfl, rfl⟩ := h
              cases r' with
              | nil => simp at hx
              | cons e r' =>
                have he : e = 58 := by simpa using hx.2
                subst he
                rw [show colon ++ c :: (ds ++ d :: 58 :: r') = (colon ++ c :: ds ++ [d, 58]) ++ r' from by simp,
                  List.take_left' (by simp; omega)]
                exact ⟨colon, c :: ds, [d], by simp, hc, hds', Or.inr ⟨d, rfl, (isUpper_iff d).1 hx.1⟩⟩
            · simp at h
      · simp at h
  unfold scanTag at h
  split at h
  · exact key [58] _ 1 (Or.inr rfl) rfl h
  · exact key [] _ 0 (Or.inl rfl) rfl h

theorem scanCharacter_typ {k : Nat} {rest : Bytes} {t : Typ} {n : Nat} {st : St} (h : scanCharacter k rest = .tok t n st) :
    t = .swiftCharacter ∨ t = .swiftAlphaNumeric := by
  fun_induction scanCharacter k rest with
  | case1 => simp at h
  | case2 k r rest h1 ih => exact ih h
  | case3 k r rest h1 h2 ih => exact ih h
  | case4 =>
    simp only [One.tok.injEq] at h
    exact Or.inl h.1.symm
  | case5 => simp at h
  | case6 => exact Or.inr (scanAlnum_tok h).2.2.2.1

theorem scanAlpha_typ {k : Nat} {rest : Bytes} {t : Typ} {n : Nat} {st : St} (h : scanAlpha k rest = .tok t n st) :
    t = .swiftAlpha ∨ t = .swiftCharacter ∨ t = .swiftAlphaNumeric := by
  fun_induction scanAlpha k rest with
  | case1 => simp at h
  | case2 k r rest h1 ih => exact ih h
  | case3 k r rest h1 h2 => exact Or.inr (scanCharacter_typ h)
  | case4 =>
    simp only [One.tok.injEq] at h
    exact Or.inl h.1.symm
  | case5 => simp at h
  | case6 => exact Or.inr (Or.inr (scanAlnum_tok h).2.2.2.1)

theorem scanDigit_typ {k : Nat} {rest : Bytes} {t : Typ} {n : Nat} {st : St} (h : scanDigit k rest = .tok t n st) :
    t = .swiftDecimal ∨ t = .swiftNumeric ∨ t = .swiftCharacter ∨ t = .swiftAlphaNumeric := by
  unfold scanDigit at h
  split at h
  · simp at h
  · split at h
    · unfold scanDecimal at h
      split at h
      · simp at h
      · split at h
        · simp only [One.tok.injEq] at h
          exact Or.inl h.1.symm
        · exact Or.inr (Or.inr (Or.inr (scanAlnum_tok h).2.2.2.1))
    · unfold scanInteger at h
      split at h
      · simp only [One.tok.injEq] at h
        exact Or.inr (Or.inl h.1.symm)
      · exact Or.inr (Or.inr (scanCharacter_typ h))

/-- Where each token stands, and what may follow it. -/
theorem lexOne_kind {st : St} {rest : Bytes} {t : Typ} {n : Nat} {st' : St} (h : lexOne st rest = .tok t n st') :
    Kind t (rest.take n) ∧
    ((t = .swiftDatasetStart ∧ st = .entry ∧ st' = .tagId) ∨ (t = .swiftTagSeparator ∧ st' = .tagId) ∨
     (t = .swiftMessageSeparator ∧ st' = .start) ∨ (t = .swiftTag ∧ st' = .start ∧ st = .tagId) ∨
     ((t = .swiftAlpha ∨ t = .swiftCharacter ∨ t = .swiftNumeric ∨ t = .swiftDecimal ∨ t = .swiftAlphaNumeric) ∧
       (st' = .start ∨ st' = .symbol) ∧ (rest.drop n).head? = some 13)) := by
  have hsym : ∀ rest : Bytes, scanSymbol rest = .tok t n st' → Kind t (rest.take n) ∧
      ((t = .swiftTagSeparator ∧ st' = .tagId) ∨ (t = .swiftMessageSeparator ∧ st' = .start)) := by
    intro rest h
    unfold scanSymbol at h
    split at h
    · split at h
      · simp at h
      · split at h
        · simp at h
        split at h
        · rename_i h45
          simp only [One.tok.injEq] at h
          obtain ⟨rfl, rfl, rfl⟩ := h
          simp only [beq_iff_eq] at h45
          subst h45
          simp [Kind]
        · simp only [One.tok.injEq] at h
          obtain ⟨rfl, rfl, rfl⟩ := h
          simp [Kind]
    · simp at h
  have hval : ∀ (x y : Bytes), Kind t y → (st' = .start ∨ st' = .symbol) → x.head? = some 13 →
      (t = .swiftAlpha ∨ t = .swiftCharacter ∨ t = .swiftNumeric ∨ t = .swiftDecimal ∨ t = .swiftAlphaNumeric) →
      (t = .swiftDatasetStart ∧ st = .entry ∧ st' = .tagId) ∨ (t = .swiftTagSeparator ∧ st' = .tagId) ∨
      (t = .swiftMessageSeparator ∧ st' = .start) ∨ (t = .swiftTag ∧ st' = .start ∧ st = .tagId) ∨
      ((t = .swiftAlpha ∨ t = .swiftCharacter ∨ t = .swiftNumeric ∨ t = .swiftDecimal ∨ t = .swiftAlphaNumeric) ∧
       (st' = .start ∨ st' = .symbol) ∧ x.head? = some 13) := by
    intro x y _ h1 h2 h3
    exact Or.inr (Or.inr (Or.inr (Or.inr ⟨h3, h1, h2⟩)))
  cases st with
  | entry =>
    simp only [lexOne] at h
    unfold scanEntry at h
    split at h
    · simp only [One.tok.injEq] at h
      obtain ⟨rfl, rfl, rfl⟩ := h
      simp [Kind]
    · simp at h
  | tagId =>
    obtain ⟨rfl, rfl, hk⟩ := scanTag_kind h
    exact ⟨hk, by simp⟩
  | start =>
    simp only [lexOne] at h
    unfold scanStart at h
    split at h
    · simp at h
    · rename_i r rest
      split at h
      · rename_i h1
        have hk := scanDigit_kind (r := r) h ((isNum_digit r).1 h1)
        obtain ⟨a, b, c, d⟩ := scanDigit_tok h
        have hd : ((r :: rest).drop n).head? = some 13 := by
          rw [show n = (n - 1) + 1 from by omega]; exact c
        refine ⟨hk, hval _ _ hk d hd ?_⟩
        have := scanDigit_typ h
        tauto
      split at h
      · rename_i h1
        have hk := scanAlpha_kind (seen := [r]) h rfl (by simp) (by simpa using (isUpper_iff r).1 h1)
        obtain ⟨a, b, c, d⟩ := scanAlpha_tok h
        have hd : ((r :: rest).drop n).head? = some 13 := by
          rw [show n = (n - 1) + 1 from by omega]; exact c
        refine ⟨hk, hval _ _ hk d hd ?_⟩
        have := scanAlpha_typ h
        tauto
      split at h
      · obtain ⟨hk, h2⟩ := hsym _ h
        exact ⟨hk, by tauto⟩
      split at h
      · simp at h
      · have hk := scanAlnum_kind (seen := [r]) h rfl (by simp)
        obtain ⟨a, b, c, d⟩ := scanAlnum_tok h
        have hd : ((r :: rest).drop n).head? = some 13 := by
          rw [show n = (n - 1) + 1 from by omega]; exact boundary_head c
        exact ⟨hk, hval _ _ hk (Or.inr d.2) hd (by simp [d.1])⟩
  | symbol =>
    obtain ⟨hk, h2⟩ := hsym rest h
    exact ⟨hk, by tauto⟩
  | digit => simp [lexOne] at h
  | alpha => simp [lexOne] at h
  | character => simp [lexOne] at h
  | alnum => simp [lexOne] at h

/-! ## Splitting runs -/

theorem Run.split {b : List Token} {st' : St} {r : Bytes} (a : List Token) : ∀ {st : St} {pos : Nat} {rest : Bytes},
    Run st pos rest (a ++ b) st' r →
    ∃ st1 y, Run st pos rest a st1 y ∧ Run st1 (pos + (values a).length) y b st' r := by
  induction a with
  | nil => intro st pos rest h; exact ⟨st, rest, .nil _ _ _, by simpa [values] using h⟩
  | cons t a ih =>
    intro st pos rest h
    cases h with
    | @cons _ _ _ typ k st2 _ _ _ h1 h2 =>
      obtain ⟨st1, y, h3, h4⟩ := ih h2
      refine ⟨st1, y, .cons h1 h3, ?_⟩
      obtain ⟨_, h5, _⟩ := lexOne_tok h1
      have : pos + (values (⟨typ, rest.take k, pos⟩ :: a)).length = pos + k + (values a).length := by
        simp [values, Nat.min_eq_left h5]
        omega
      rwa [this]

theorem Run.one {st : St} {pos : Nat} {rest : Bytes} {t : Token} {st' : St} {r : Bytes} (h : Run st pos rest [t] st' r) :
    ∃ k, lexOne st rest = .tok t.typ k st' ∧ t.val = rest.take k ∧ r = rest.drop k := by
  cases h with
  | cons h1 h2 => cases h2; exact ⟨_, h1, rfl, rfl⟩

theorem Run.kinds {st : St} {pos : Nat} {rest : Bytes} {ts : List Token} {st' : St} {r : Bytes}
    (h : Run st pos rest ts st' r) : ∀ t ∈ ts, Kind t.typ t.val := by
  induction h with
  | nil => simp
  | cons h1 _ ih =>
    intro t ht
    rcases List.mem_cons.1 ht with rfl | ht
    · exact (lexOne_kind h1).1
    · exact ih t ht

theorem kind_end {t : Typ} {v : Bytes} (h : Kind t v) : t ≠ .eof ∧ t ≠ .error := by
  constructor <;> rintro rfl <;> exact h

theorem kind_ne {t : Typ} {v : Bytes} (h : Kind t v) : v ≠ [] := by
  rintro rfl
  cases t
  case swiftDecimal => obtain ⟨a, b, h, _⟩ := h; simp at h
  case swiftTag => obtain ⟨a, b, c, h, _⟩ := h; simp at h
  all_goals simp [Kind, DigitString] at h

theorem Run.length_le {st : St} {pos : Nat} {rest : Bytes} {ts : List Token} {st' : St} {r : Bytes}
    (h : Run st pos rest ts st' r) : ts.length + r.length ≤ rest.length := by
  induction h with
  | nil => simp
  | cons h1 _ ih =>
    obtain ⟨a, b, _⟩ := lexOne_tok h1
    simp at ih ⊢
    omega

theorem lexOne_stop {st : St} {rest : Bytes} {k : Nat} (h : lexOne st rest = .stop k)
    (hst : st = .entry ∨ st = .tagId ∨ st = .start ∨ st = .symbol) :
    st = .start ∧ ((rest = [] ∧ k = 0) ∨ (rest.head? = some 0 ∧ k = 1)) := by
  have hA : ∀ n x, scanAlnum n x ≠ .stop k := by
    intro n x
    fun_induction scanAlnum n x <;> simp_all
  have hC : ∀ n x, scanCharacter n x ≠ .stop k := by
    intro n x
    fun_induction scanCharacter n x <;> simp_all
  have hL : ∀ n x, scanAlpha n x ≠ .stop k := by
    intro n x
    fun_induction scanAlpha n x <;> simp_all
  have hT : ∀ n x, scanTagDigits n x ≠ .stop k := by
    intro n x
    unfold scanTagDigits scanTagEnd
    repeat' split
    all_goals simp
  have hS : ∀ x, scanSymbol x ≠ .stop k := by
    intro x
    unfold scanSymbol
    repeat' split
    all_goals simp
  have hD : ∀ n x, scanDigit n x ≠ .stop k := by
    intro n x
    unfold scanDigit scanDecimal scanInteger
    repeat' split
    all_goals simp [hA, hC]
  rcases hst with rfl | rfl | rfl | rfl
  · simp only [lexOne, scanEntry] at h
    split at h <;> simp at h
  · simp only [lexOne, scanTag] at h
    split at h <;> exact absurd h (hT _ _)
  · refine ⟨rfl, ?_⟩
    simp only [lexOne] at h
    unfold scanStart at h
    split at h
    · simp at h; exact Or.inl ⟨rfl, h.symm⟩
    · rename_i r rest
      split at h
      · exact absurd h (hD _ _)
      split at h
      · exact absurd h (hL _ _)
      split at h
      · exact absurd h (hS _)
      split at h
      · rename_i h0
        simp at h h0
        exact Or.inr ⟨by simp [h0], h.symm⟩
      · exact absurd h (hA _ _)
  · exact absurd h (hS _)

theorem Run.st_cases {st : St} {pos : Nat} {rest : Bytes} {ts : List Token} {st' : St} {r : Bytes}
    (h : Run st pos rest ts st' r) (hst : st = .entry ∨ st = .tagId ∨ st = .start ∨ st = .symbol) :
    st' = .entry ∨ st' = .tagId ∨ st' = .start ∨ st' = .symbol := by
  induction h with
  | nil => exact hst
  | cons h1 _ ih =>
    apply ih
    have := (lexOne_tok h1).2.2.1
    tauto

/-- The lexer's result in full. -/
theorem lex_done (input : Bytes) : ∃ ts st' r last, lex input = .done (ts ++ [last]) ∧ Run .entry 0 input ts st' r ∧
    last.pos = (values ts).length ∧
    ((last.typ = .error ∧ ∃ m, lexOne st' r = .err m ∧ last.val = m) ∨
     (last.typ = .eof ∧ st' = .start ∧ ((r = [] ∧ last.val = []) ∨ (∃ dropped, r = 0 :: dropped ∧ last.val = [0])))) := by
  rw [lex_eq_scan]
  obtain ⟨ts, st', r, hr, h⟩ := scan_run .entry 0 input
  rcases h with ⟨k, h1, h2⟩ | ⟨m, h1, h2⟩
  · refine ⟨ts, st', r, _, h2, hr, by simp, Or.inr ⟨rfl, ?_⟩⟩
    obtain ⟨h3, h4⟩ := lexOne_stop h1 (hr.st_cases (Or.inl rfl))
    refine ⟨h3, ?_⟩
    rcases h4 with ⟨rfl, rfl⟩ | ⟨h4, rfl⟩
    · exact Or.inl ⟨rfl, rfl⟩
    · cases r with
      | nil => simp at h4
      | cons c r =>
        simp at h4
        subst h4
        exact Or.inr ⟨r, rfl, rfl⟩
  · exact ⟨ts, st', r, _, h2, hr, by simp, Or.inl ⟨rfl, m, h1, rfl⟩⟩

/-- How a run from the beginning can arrive at the end of the input. -/
theorem Run.ending {input : Bytes} {ts : List Token} {r : Bytes} (h : Run .entry 0 input ts .start r)
    (hr : r.head? ≠ some 13) :
    (∃ x t, ts = x ++ [t] ∧ t.typ = .swiftMessageSeparator) ∨
    (∃ x s t, ts = x ++ [s, t] ∧ (s.typ = .swiftDatasetStart ∨ s.typ = .swiftTagSeparator) ∧ t.typ = .swiftTag) := by
  rcases List.eq_nil_or_concat ts with rfl | ⟨x, t, rfl⟩
  · cases h
  · rw [List.concat_eq_append] at h ⊢
    obtain ⟨st1, y, h1, h2⟩ := h.split
    obtain ⟨k, h3, h4, h5⟩ := h2.one
    rcases (lexOne_kind h3).2 with ⟨_, _, h6⟩ | ⟨_, h6⟩ | ⟨h6, _⟩ | ⟨h6, _, h7⟩ | ⟨_, _, h6⟩
    · simp at h6
    · simp at h6
    · exact Or.inl ⟨x, t, rfl, h6⟩
    · right
      subst h7
      rcases List.eq_nil_or_concat x with rfl | ⟨x, s, rfl⟩
      · cases h1
      · rw [List.concat_eq_append] at h1 ⊢
        obtain ⟨st2, z, g1, g2⟩ := h1.split
        obtain ⟨j, g3, g4, g5⟩ := g2.one
        refine ⟨x, s, t, by simp, ?_, h6⟩
        rcases (lexOne_kind g3).2 with ⟨g, _⟩ | ⟨g, _⟩ | ⟨_, g⟩ | ⟨_, g, _⟩ | ⟨_, g, _⟩
        · exact Or.inl g
        · exact Or.inr g
        · simp at g
        · simp at g
        · simp at g
    · rw [← h5] at h6
      exact absurd h6 hr

end Verif.Swift

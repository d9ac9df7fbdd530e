import Verif.Swift.Lemmas

/-
Well-formed messages are tokenised as one expects.
-/

namespace Verif.Swift

open Token (Typ Token Drain isDig digits_cases takeWhile_all)
open Token.Spec (Digit DigitString values)
open Spec

theorem endsValue_append {b z : Bytes} (hb : b ≠ []) (h : EndsValue (b ++ 13 :: 10 :: z)) : EndsValue (b ++ [13, 10]) := by
  obtain ⟨r, h1, h2⟩ := h
  have n1 : ¬ Digit 13 := by unfold Digit; decide
  match b, hb with
  | [a], _ => simp at h1
  | [a, c], _ =>
    simp only [List.cons_append, List.nil_append, List.cons.injEq] at h1
    obtain ⟨rfl, rfl, rfl⟩ := h1
    simp at h2
  | [a, c, e], _ =>
    simp only [List.cons_append, List.nil_append, List.cons.injEq] at h1
    obtain ⟨rfl, rfl, rfl⟩ := h1
    refine ⟨[e, 13, 10], rfl, ?_⟩
    simp only [List.cons.injEq] at h2
    rcases h2 with ⟨d, x, y, ⟨rfl, rfl, _⟩, hd⟩ | ⟨x, _, h, _⟩ | ⟨x, rfl, _⟩ | ⟨_, h⟩
    · exact absurd hd n1
    · simp at h
    · exact Or.inr (Or.inr (Or.inl ⟨[], rfl⟩))
    · simp at h
  | a :: c :: e :: f :: b, _ =>
    simp only [List.cons_append, List.nil_append, List.cons.injEq] at h1
    obtain ⟨rfl, rfl, rfl⟩ := h1
    refine ⟨e :: f :: (b ++ [13, 10]), rfl, ?_⟩
    simp only [List.cons.injEq] at h2
    rcases h2 with ⟨d, x, y, ⟨rfl, rfl, h⟩, hd⟩ | ⟨x, rfl, rfl, h⟩ | ⟨x, rfl, rfl, h⟩ | ⟨_, h⟩
    · cases hb' : b ++ [13, 10] with
      | nil => simp at hb'
      | cons p q => exact Or.inl ⟨f, p, q, rfl, hd⟩
    · exact Or.inr (Or.inl ⟨_, rfl⟩)
    · cases b with
      | nil => simp at h
      | cons p q =>
        simp at h
        obtain ⟨rfl, _⟩ := h
        exact Or.inr (Or.inr (Or.inl ⟨q ++ [13, 10], rfl⟩))
    · simp at h

theorem value_inner {v z : Bytes} (h : ∀ a b, v = a ++ b → b ≠ [] → ¬ EndsValue (b ++ [13, 10])) (a b : Bytes) (hv : v = a ++ b)
    (hb : b ≠ []) : boundary (b ++ 13 :: 10 :: z) = false := by
  have := h a b hv hb
  rw [Bool.eq_false_iff]
  intro hc
  exact this (endsValue_append hb ((boundary_iff _).1 hc))

/-- The rest of a value that is to be read as it is. -/
structure Mid (w rest : Bytes) : Prop where
  noNul : 0 ∉ w
  inner : ∀ a b, w = a ++ b → b ≠ [] → boundary (b ++ rest) = false
  stop : boundary rest = true

theorem Mid.tail {c : Byte} {w rest : Bytes} (h : Mid (c :: w) rest) : Mid w rest :=
  ⟨fun hm => h.noNul (List.mem_cons_of_mem _ hm), fun a b he hb => h.inner (c :: a) b (by simp [he]) hb, h.stop⟩

theorem Mid.suffix {x w rest : Bytes} (h : Mid (x ++ w) rest) : Mid w rest := by
  induction x with
  | nil => simpa using h
  | cons c x ih => exact ih h.tail

theorem scanAlnum_mid {w : Bytes} : ∀ {k : Nat} {rest : Bytes}, Mid w rest →
    scanAlnum k (w ++ rest) = .tok .swiftAlphaNumeric (k + w.length) .symbol := by
  induction w with
  | nil =>
    intro k rest h
    have h1 := boundary_head h.stop
    cases rest with
    | nil => simp at h1
    | cons c rest =>
      simp at h1
      subst h1
      simp [scanAlnum, h.stop]
  | cons c w ih =>
    intro k rest h
    have h1 := h.inner [] (c :: w) rfl (by simp)
    have h2 : c ≠ 0 := fun he => h.noNul (by simp [he])
    have h3 : scanAlnum (k + 1) (w ++ rest) = .tok .swiftAlphaNumeric (k + (c :: w).length) .symbol := by
      rw [ih h.tail]; simp; omega
    simp only [List.cons_append] at h1 ⊢
    unfold scanAlnum
    rw [h1]
    simp [h2, h3]

/-- A token of a value. -/
def Valued (o : One) (n : Nat) : Prop :=
  ∃ t st, o = .tok t n st ∧ (st = .start ∨ st = .symbol) ∧
    (t = .swiftAlpha ∨ t = .swiftCharacter ∨ t = .swiftNumeric ∨ t = .swiftDecimal ∨ t = .swiftAlphaNumeric)

theorem valued_alnum {w rest : Bytes} {k n : Nat} (h : Mid w rest) (hn : n = k + w.length) :
    Valued (scanAlnum k (w ++ rest)) n := by
  subst hn
  exact ⟨_, _, scanAlnum_mid h, Or.inr rfl, by simp⟩

theorem firstLine_cons {c : Byte} {w : Bytes} (h : c ≠ 13) : firstLine (c :: w) = c :: firstLine w := by
  simp [firstLine, h]

theorem firstLine_append {x w : Bytes} (h : ∀ b ∈ x, b ≠ 13) : firstLine (x ++ w) = x ++ firstLine w := by
  induction x with
  | nil => rfl
  | cons c x ih =>
    rw [List.cons_append, firstLine_cons (h c (by simp)), ih (fun b hb => h b (by simp [hb]))]
    rfl

theorem digit_ne {b : Byte} (h : Digit b) : b ≠ 13 := by rintro rfl; revert h; unfold Digit; decide
theorem upper_ne {b : Byte} (h : Upper b) : b ≠ 13 := by rintro rfl; revert h; unfold Upper; decide

theorem scanCharacter_mid {w : Bytes} : ∀ {k : Nat} {rest : Bytes}, Mid w rest → (13 ∈ w → ¬ Plain (firstLine w)) →
    Valued (scanCharacter k (w ++ rest)) (k + w.length) := by
  induction w with
  | nil =>
    intro k rest h _
    have h1 := boundary_head h.stop
    cases rest with
    | nil => simp at h1
    | cons c rest =>
      simp at h1
      subst h1
      exact ⟨.swiftCharacter, .start, by simp [scanCharacter, isUpper, isNum], Or.inl rfl, by simp⟩
  | cons c w ih =>
    intro k rest h hl
    have h2 : c ≠ 0 := fun he => h.noNul (by simp [he])
    have h3 : c ≠ 13 := by
      rintro rfl
      refine hl (by simp) ?_
      intro b hb
      simp [firstLine] at hb
    have hrec : (Upper c ∨ Digit c) → Valued (scanCharacter (k + 1) (w ++ rest)) (k + (c :: w).length) := by
      intro hc
      have := ih (k := k + 1) h.tail (by
        intro hm hp
        refine hl (by simp [hm]) ?_
        rw [firstLine_cons h3]
        intro b hb
        rcases List.mem_cons.1 hb with rfl | hb
        · exact hc
        · exact hp b hb)
      rwa [show k + (c :: w).length = k + 1 + w.length from by simp; omega]
    simp only [List.cons_append]
    unfold scanCharacter
    split
    · rename_i h4; exact hrec (Or.inl ((isUpper_iff c).1 h4))
    split
    · rename_i h4; exact hrec (Or.inr ((isNum_digit c).1 h4))
    split
    · rename_i h4; simp [h3] at h4
    split
    · rename_i h4; simp [h2] at h4
    · exact valued_alnum h.tail (by simp; omega)

theorem scanAlpha_mid {w : Bytes} : ∀ {k : Nat} {rest : Bytes}, Mid w rest → (13 ∈ w → ¬ Plain (firstLine w)) →
    Valued (scanAlpha k (w ++ rest)) (k + w.length) := by
  induction w with
  | nil =>
    intro k rest h _
    have h1 := boundary_head h.stop
    cases rest with
    | nil => simp at h1
    | cons c rest =>
      simp at h1
      subst h1
      exact ⟨.swiftAlpha, .start, by simp [scanAlpha, isUpper, isNum], Or.inl rfl, by simp⟩
  | cons c w ih =>
    intro k rest h hl
    have h2 : c ≠ 0 := fun he => h.noNul (by simp [he])
    have h3 : c ≠ 13 := by
      rintro rfl
      refine hl (by simp) ?_
      intro b hb
      simp [firstLine] at hb
    have hl' : (Upper c ∨ Digit c) → 13 ∈ w → ¬ Plain (firstLine w) := by
      intro hc hm hp
      refine hl (by simp [hm]) ?_
      rw [firstLine_cons h3]
      intro b hb
      rcases List.mem_cons.1 hb with rfl | hb
      · exact hc
      · exact hp b hb
    have hn : k + (c :: w).length = k + 1 + w.length := by simp; omega
    simp only [List.cons_append]
    unfold scanAlpha
    rw [hn]
    split
    · rename_i h4; exact ih h.tail (hl' (Or.inl ((isUpper_iff c).1 h4)))
    split
    · rename_i h4; exact scanCharacter_mid h.tail (hl' (Or.inr ((isNum_digit c).1 h4)))
    split
    · rename_i h4; simp [h3] at h4
    split
    · rename_i h4; simp [h2] at h4
    · exact valued_alnum h.tail rfl

theorem takeWhile_rest {w rest : Bytes} (h : rest.head? = some 13) :
    (w ++ rest).takeWhile isDig = w.takeWhile isDig ∧ (w ++ rest).dropWhile isDig = w.dropWhile isDig ++ rest := by
  cases rest with
  | nil => simp at h
  | cons c rest =>
    simp at h
    subst h
    have h13 : isDig 13 = false := by decide
    induction w with
    | nil => simp [h13]
    | cons d w ih =>
      cases hd : isDig d
      · simp [hd]
      · simp [hd, ih]

theorem scanDigit_mid {r : Byte} {w rest : Bytes} (hr : Digit r) (h : Mid w rest)
    (hl : 13 ∈ w → ¬ Plain (firstLine (r :: w)) ∧ ¬ Decimal (firstLine (r :: w))) :
    Valued (scanDigit 1 (w ++ rest)) (1 + w.length) := by
  have h13 := boundary_head h.stop
  have hr13 : r ≠ 13 := digit_ne hr
  unfold scanDigit
  rw [(takeWhile_rest h13).1, (takeWhile_rest h13).2]
  rcases digits_cases w with ⟨h1, h2⟩ | ⟨c, w', h1, h2, h3⟩
  · rw [h1]
    simp only [List.nil_append]
    cases rest with
    | nil => simp at h13
    | cons c rest =>
      simp at h13
      subst h13
      have : scanInteger (1 + (w.takeWhile isDig).length) (13 :: rest) = .tok .swiftNumeric (1 + w.length) .start := by
        unfold scanInteger
        rw [if_pos h.stop]
        conv => rhs; rw [h2]
      simp only
      rw [if_neg (by decide), this]
      exact ⟨_, _, rfl, Or.inl rfl, by simp⟩
  · rw [h1]
    have hds : ∀ d ∈ w.takeWhile isDig, Digit d := fun d hd => (isDig_iff d).1 (takeWhile_all d hd)
    generalize w.takeWhile isDig = ds at *
    subst h3
    have hds13 : ∀ b ∈ r :: ds, b ≠ 13 := by
      intro b hb
      rcases List.mem_cons.1 hb with rfl | hb
      · exact hr13
      · exact digit_ne (hds b hb)
    have hds' : DigitString (r :: ds) := ⟨by simp, by
      intro b hb
      rcases List.mem_cons.1 hb with rfl | hb
      · exact hr
      · exact hds b hb⟩
    simp only [List.cons_append]
    split
    · rename_i h44
      simp only [beq_iff_eq] at h44
      subst h44
      rw [(takeWhile_rest h13).1, (takeWhile_rest h13).2]
      unfold scanDecimal
      rcases digits_cases w' with ⟨k1, k2⟩ | ⟨c', r'', k1, k2, k3⟩
      · rw [k1]
        simp only [List.nil_append]
        cases rest with
        | nil => simp at h13
        | cons c rest =>
          simp at h13
          subst h13
          simp only [beq_self_eq_true, if_true]
          exact ⟨.swiftDecimal, .start, by rw [← k2]; simp; omega, Or.inl rfl, by simp⟩
      · rw [k1]
        have hes : ∀ d ∈ w'.takeWhile isDig, Digit d := fun d hd => (isDig_iff d).1 (takeWhile_all d hd)
        generalize w'.takeWhile isDig = es at *
        subst k3
        simp only [List.cons_append]
        have hc : c' ≠ 13 := by
          rintro rfl
          refine (hl (by simp)).2 ?_
          rw [show r :: (ds ++ 44 :: (es ++ 13 :: r'')) = ((r :: ds) ++ 44 :: es) ++ 13 :: r'' from by simp,
            firstLine_append]
          · exact ⟨r :: ds, es, by simp [firstLine], hds', hes⟩
          · intro b hb
            rcases List.mem_append.1 hb with hb | hb
            · exact hds13 b hb
            · rcases List.mem_cons.1 hb with rfl | hb
              · decide
              · exact digit_ne (hes b hb)
        rw [if_neg (by simpa using hc)]
        have hm : Mid (c' :: r'') rest := by
          have : Mid ((ds ++ 44 :: es) ++ c' :: r'') rest := by simpa using h
          exact this.suffix
        exact valued_alnum (w := c' :: r'') hm (by simp; omega)
    · rename_i h44
      have hm : Mid (c :: w') rest := h.suffix
      have hb := hm.inner [] (c :: w') rfl (by simp)
      simp only [List.cons_append] at hb
      unfold scanInteger
      rw [if_neg (by simp [hb])]
      have := scanCharacter_mid (k := 1 + ds.length) hm (by
        intro hi hp
        refine (hl (by simpa using Or.inr hi)).1 ?_
        rw [show r :: (ds ++ c :: w') = (r :: ds) ++ c :: w' from by simp, firstLine_append hds13]
        intro b hb
        rcases List.mem_append.1 hb with hb | hb
        · exact Or.inr (hds'.2 b hb)
        · exact hp b hb)
      rwa [show 1 + (ds ++ c :: w').length = 1 + ds.length + (c :: w').length from by simp; omega]

theorem valued_run {st : St} {pos : Nat} {v rest : Bytes} (h : Valued (lexOne st (v ++ rest)) v.length) :
    ∃ t st', Run st pos (v ++ rest) [⟨t, v, pos⟩] st' rest ∧ (st' = .start ∨ st' = .symbol) ∧
    (t = .swiftAlpha ∨ t = .swiftCharacter ∨ t = .swiftNumeric ∨ t = .swiftDecimal ∨ t = .swiftAlphaNumeric) := by
  obtain ⟨t, st', h1, h2, h3⟩ := h
  refine ⟨t, st', ?_, h2, h3⟩
  have := Run.cons (pos := pos) h1 (.nil _ _ _)
  rwa [List.take_left, List.drop_left] at this

theorem value_run {pos : Nat} {v z : Bytes} (h : Value v) (hz : EndsValue (13 :: 10 :: z)) :
    ∃ ts st', Run .start pos (v ++ 13 :: 10 :: z) ts st' (13 :: 10 :: z) ∧ (st' = .start ∨ st' = .symbol) ∧ values ts = v ∧
      ∀ t ∈ ts, (t.typ = .swiftAlpha ∨ t.typ = .swiftCharacter ∨ t.typ = .swiftNumeric ∨ t.typ = .swiftDecimal ∨
        t.typ = .swiftAlphaNumeric) := by
  cases v with
  | nil => exact ⟨[], .start, .nil _ _ _, Or.inl rfl, rfl, by simp⟩
  | cons c w =>
    have hm : Mid (c :: w) (13 :: 10 :: z) := ⟨h.noNul, value_inner h.inner, (boundary_iff _).2 hz⟩
    have h2 : c ≠ 0 := fun he => h.noNul (by simp [he])
    have h3 : c ≠ 13 := fun he => h.head (by simp [he])
    have hl : 13 ∈ w → ¬ Plain (firstLine (c :: w)) ∧ ¬ Decimal (firstLine (c :: w)) := fun hm => h.lines (by simp [hm])
    have hl' : (Upper c ∨ Digit c) → 13 ∈ w → ¬ Plain (firstLine w) := by
      intro hc hm hp
      refine (hl hm).1 ?_
      rw [firstLine_cons h3]
      intro b hb
      rcases List.mem_cons.1 hb with rfl | hb
      · exact hc
      · exact hp b hb
    have key : Valued (lexOne .start ((c :: w) ++ 13 :: 10 :: z)) (c :: w).length := by
      rw [show (c :: w).length = 1 + w.length from by simp; omega]
      simp only [lexOne, List.cons_append]
      unfold scanStart
      simp only
      split
      · rename_i h4; exact scanDigit_mid ((isNum_digit c).1 h4) hm.tail hl
      split
      · rename_i h4; exact scanAlpha_mid hm.tail (hl' (Or.inl ((isUpper_iff c).1 h4)))
      split
      · rename_i h4; simp [h3] at h4
      split
      · rename_i h4; simp [h2] at h4
      · exact valued_alnum hm.tail rfl
    obtain ⟨t, st', g1, g2, g3⟩ := valued_run (pos := pos) key
    exact ⟨_, st', g1, g2, by simp [values], by simpa using g3⟩

theorem tag_run {pos : Nat} {i x : Bytes} (h1 : i.head? = some 58) (h2 : TagId i) :
    Run .tagId pos (i ++ x) [⟨.swiftTag, i, pos⟩] .start x := by
  have : lexOne .tagId (i ++ x) = .tok .swiftTag i.length .start := by
    obtain ⟨colon, ds, letter, rfl, hc, hds, hl⟩ := h2
    have hcol : colon = [58] := by
      rcases hc with rfl | rfl
      · exfalso
        cases ds with
        | nil => exact hds.1 rfl
        | cons d ds =>
          simp at h1
          have := hds.2 d (by simp)
          rw [h1] at this
          revert this
          unfold Digit; decide
      · rfl
    subst hcol
    cases ds with
    | nil => exact absurd rfl hds.1
    | cons d ds =>
      have hd : isDig d = true := (isDig_iff d).2 (hds.2 d (by simp))
      have hds' : ∀ b ∈ ds, isDig b = true := fun b hb => (isDig_iff b).2 (hds.2 b (by simp [hb]))
      have h58 : isDig 58 = false := by decide
      have htake : ∀ (c : Byte) (y : Bytes), isDig c = false → (ds ++ c :: y).takeWhile isDig = ds ∧
          (ds ++ c :: y).dropWhile isDig = c :: y := by
        intro c y hc
        constructor
        · rw [List.takeWhile_append_of_pos hds']
          simp [hc]
        · rw [List.dropWhile_append_of_pos hds']
          simp [hc]
      rcases hl with rfl | ⟨c, rfl, hc⟩
      · simp only [lexOne, scanTag, List.cons_append, List.nil_append, List.append_nil, List.append_assoc, scanTagDigits, hd,
          if_true]
        rw [(htake 58 x h58).1, (htake 58 x h58).2]
        simp [scanTagEnd]
        omega
      · have hcd : isDig c = false := by
          rw [Bool.eq_false_iff]
          intro h
          have := (isDig_iff c).1 h
          unfold Upper at hc
          unfold Digit at this
          omega
        have hne : c ≠ 58 := by
          rintro rfl
          revert hc
          unfold Upper; decide
        simp only [lexOne, scanTag, List.cons_append, List.nil_append, List.append_assoc, scanTagDigits, hd, if_true]
        rw [(htake c (58 :: x) hcd).1, (htake c (58 :: x) hcd).2]
        simp [scanTagEnd, hne, (isUpper_iff c).2 hc]
        omega
  have := Run.cons (pos := pos) this (.nil _ _ _)
  rwa [List.take_left, List.drop_left] at this

theorem sep_run {st : St} {pos : Nat} {c : Byte} {z : Bytes} (hst : st = .start ∨ st = .symbol) (h0 : c ≠ 0) (h1 : c ≠ 45) :
    Run st pos (13 :: 10 :: c :: z) [⟨.swiftTagSeparator, [13, 10], pos⟩] .tagId (c :: z) := by
  have : lexOne st (13 :: 10 :: c :: z) = .tok .swiftTagSeparator 2 .tagId := by
    rcases hst with rfl | rfl <;> simp [lexOne, scanStart, scanSymbol, h0, h1, isNum, isUpper]
  exact .cons this (.nil _ _ _)

theorem msg_run {st : St} {pos : Nat} {z : Bytes} (hst : st = .start ∨ st = .symbol) :
    Run st pos (13 :: 10 :: 45 :: z) [⟨.swiftMessageSeparator, [13, 10, 45], pos⟩] .start z := by
  have : lexOne st (13 :: 10 :: 45 :: z) = .tok .swiftMessageSeparator 3 .start := by
    rcases hst with rfl | rfl <;> simp [lexOne, scanStart, scanSymbol, isNum, isUpper]
  exact .cons this (.nil _ _ _)

/-- What the loops do with a value's tokens. -/
theorem loops_plain {ts : List Token} : (∀ t ∈ ts, (t.typ = .swiftTag ∨ t.typ = .swiftAlpha ∨ t.typ = .swiftCharacter ∨
      t.typ = .swiftNumeric ∨ t.typ = .swiftDecimal ∨ t.typ = .swiftAlphaNumeric)) → ∀ (us : List Token) (cur : Bytes) (acc : List Bytes),
    messageLoop (ts ++ us) cur acc = messageLoop us (cur ++ values ts) acc ∧
    tagLoop (ts ++ us) cur acc = tagLoop us (cur ++ values ts) acc := by
  induction ts with
  | nil => intro _ us cur acc; simp [values]
  | cons t ts ih =>
    intro h us cur acc
    have ht := h t (by simp)
    have := ih (fun t ht => h t (by simp [ht])) us (cur ++ t.val) acc
    have hv : cur ++ values (t :: ts) = cur ++ t.val ++ values ts := by simp [values]
    rw [hv, ← this.1, ← this.2]
    constructor
    · rcases ht with h | h | h | h | h | h <;> simp [messageLoop, h]
    · rcases ht with h | h | h | h | h | h <;> simp [tagLoop, h]

theorem loops_tagged {vs : List Token} {i v : Bytes} {pos : Nat} (h3 : values vs = v)
    (h4 : ∀ t ∈ vs, (t.typ = .swiftAlpha ∨ t.typ = .swiftCharacter ∨ t.typ = .swiftNumeric ∨ t.typ = .swiftDecimal ∨
        t.typ = .swiftAlphaNumeric)) (us : List Token) (cur : Bytes) (acc : List Bytes) :
    messageLoop ([⟨.swiftTag, i, pos⟩] ++ vs ++ us) cur acc = messageLoop us (cur ++ (i ++ v)) acc ∧
    tagLoop ([⟨.swiftTag, i, pos⟩] ++ vs ++ us) cur acc = tagLoop us (cur ++ (i ++ v)) acc := by
  have hv : values ([(⟨.swiftTag, i, pos⟩ : Token)] ++ vs) = i ++ v := by rw [← h3]; simp [values]
  rw [← hv]
  refine loops_plain ?_ us cur acc
  intro x hx
  rcases List.mem_append.1 hx with hx | hx
  · simp at hx; simp [hx]
  · exact Or.inr (h4 x hx)

theorem wire_cons (t : Tag) (ts : List Tag) : wire (t :: ts) = [13, 10] ++ (t.id ++ t.value ++ wire ts) := by
  simp [wire]

theorem wire_head (ts : List Tag) : ∃ z, wire ts = 13 :: 10 :: z := by
  cases ts with
  | nil => exact ⟨[45], rfl⟩
  | cons t ts => exact ⟨_, by rw [wire_cons]; rfl⟩

theorem wire_ends {ts : List Tag} {more : Bytes} (hok : ∀ t ∈ ts, t.Ok) (hm : more = [] ∨ ∃ m, more = 13 :: 10 :: m) :
    EndsValue (wire ts ++ more) := by
  cases ts with
  | nil =>
    refine ⟨45 :: more, rfl, ?_⟩
    rcases hm with rfl | ⟨m, rfl⟩
    · simp
    · exact Or.inr (Or.inr (Or.inl ⟨m, rfl⟩))
  | cons t ts =>
    obtain ⟨h1, ⟨colon, ds, letter, he, hc, hds, hl⟩, _⟩ := hok t (by simp)
    refine ⟨t.id ++ t.value ++ wire ts ++ more, by rw [wire_cons]; simp, Or.inl ?_⟩
    cases ds with
    | nil => exact absurd rfl hds.1
    | cons d ds =>
      have hd := hds.2 d (by simp)
      have hcol : colon = [58] := by
        rcases hc with rfl | rfl
        · exfalso
          rw [he] at h1
          simp at h1
          rw [h1] at hd
          revert hd
          unfold Digit; decide
        · rfl
      subst hcol
      have : ∃ x y, ds ++ letter ++ [58] ++ (t.value ++ wire ts ++ more) = x :: y := by
        cases h : ds ++ letter ++ [58] ++ (t.value ++ wire ts ++ more) with
        | nil => simp at h
        | cons x y => exact ⟨x, y, rfl⟩
      obtain ⟨x, y, hx⟩ := this
      refine ⟨d, x, y, ?_, hd⟩
      rw [he, ← hx]
      simp

theorem id_head {t : Tag} (h : t.Ok) : ∃ i, t.id = 58 :: i := by
  have := h.1
  cases hi : t.id with
  | nil => simp [hi] at this
  | cons a b => simp [hi] at this; exact ⟨b, by rw [this]⟩

theorem tags_run {ts : List Tag} : ∀ {t : Tag} {pos : Nat} {more : Bytes}, t.Ok → (∀ t ∈ ts, t.Ok) →
    (more = [] ∨ ∃ m, more = 13 :: 10 :: m) →
    ∃ toks, Run .tagId pos (t.id ++ t.value ++ wire ts ++ more) toks .start more ∧
      (∀ cur acc us, messageLoop (toks ++ us) cur acc = messageLoop us [] (acc ++ [cur ++ (t.id ++ t.value ++ wire ts)])) ∧
      (∀ acc us, tagLoop (toks ++ us) [] acc = tagLoop us [] (acc ++ (t :: ts).map (fun t => t.id ++ t.value))) := by
  induction ts with
  | nil =>
    intro t pos more ht hts hm
    obtain ⟨z, hz⟩ : ∃ z, wire [] ++ more = 13 :: 10 :: z := ⟨45 :: more, rfl⟩
    have he := wire_ends (ts := []) (by simp) hm
    rw [hz] at he
    obtain ⟨vs, st', h1, h2, h3, h4⟩ := value_run (pos := pos + (values [(⟨.swiftTag, t.id, pos⟩ : Token)]).length) ht.2.2 he
    rw [← hz] at h1
    have r1 := (tag_run (pos := pos) (x := t.value ++ (wire [] ++ more)) ht.1 ht.2.1).append h1
    have r2 := r1.append (msg_run (z := more) h2)
    refine ⟨_, by rw [List.append_assoc, List.append_assoc]; exact r2, ?_, ?_⟩
    · intro cur acc us
      rw [List.append_assoc]
      rw [(loops_tagged h3 h4 _ _ _).1]
      simp [messageLoop, wire]
    · intro acc us
      rw [List.append_assoc]
      rw [(loops_tagged h3 h4 _ _ _).2]
      simp [tagLoop]
  | cons t' ts ih =>
    intro t pos more ht hts hm
    have ht' := hts t' (by simp)
    obtain ⟨i, hi⟩ := id_head ht'
    obtain ⟨z, hz⟩ : ∃ z, wire (t' :: ts) ++ more = 13 :: 10 :: z := ⟨_, by rw [wire_cons]; rfl⟩
    have hz' : z = 58 :: (i ++ t'.value ++ wire ts ++ more) := by
      rw [wire_cons] at hz
      simp at hz
      rw [← hz, hi]
      simp
    have he := wire_ends hts hm
    rw [hz] at he
    obtain ⟨vs, st', h1, h2, h3, h4⟩ := value_run (pos := pos + (values [(⟨.swiftTag, t.id, pos⟩ : Token)]).length) ht.2.2 he
    have r1 := (tag_run (pos := pos) (x := t.value ++ 13 :: 10 :: z) ht.1 ht.2.1).append h1
    rw [hz'] at r1
    have r2 := r1.append (sep_run h2 (by decide) (by decide))
    have hz2 : (58 :: (i ++ t'.value ++ wire ts ++ more)) = t'.id ++ t'.value ++ wire ts ++ more := by rw [hi]; simp
    rw [hz2] at r2
    obtain ⟨toks, r3, m1, m2⟩ := ih (pos := _) ht' (fun x hx => hts x (by simp [hx])) hm
    have r4 := r2.append r3
    refine ⟨_, by rw [List.append_assoc, List.append_assoc, hz, hz', hz2]; exact r4, ?_, ?_⟩
    · intro cur acc us
      rw [List.append_assoc, List.append_assoc]
      rw [(loops_tagged h3 h4 _ _ _).1]
      simp only [List.cons_append, List.nil_append, messageLoop]
      rw [if_neg (by simp), if_neg (by simp), m1]
      simp [wire_cons]
    · intro acc us
      rw [List.append_assoc, List.append_assoc]
      rw [(loops_tagged h3 h4 _ _ _).2]
      simp only [List.cons_append, List.nil_append, tagLoop]
      rw [if_neg (by simp), if_pos (by simp), m2]
      simp

end Verif.Swift

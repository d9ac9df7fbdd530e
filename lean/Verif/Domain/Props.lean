import Verif.Domain.Model
import Verif.Element.DateLemmas
import Verif.Element.Spec

/-
C22, C55, C57: acknowledgement classes, timeframes, TAN lookup.
-/

namespace Verif.Domain

open GoLib Time Verif.Token.Spec Element.Spec Verif.Element

/-! ## C22 -/

/-- C22: the classes by code; the first digit decides for four digit codes. -/
theorem C22_classes (a : Acknowledgement) :
    (a.isError = true ↔ 9000 ≤ a.code) ∧
    (a.isWarning = true ↔ a.code / 1000 = 3) ∧
    (a.isSuccess = true ↔ 1 ≤ a.code ∧ a.code ≤ 999) := by
  simp only [Acknowledgement.isError, Acknowledgement.isWarning, Acknowledgement.isSuccess,
    Bool.and_eq_true, decide_eq_true_eq]
  refine ⟨trivial, ?_, ?_⟩ <;> omega

/-- C22: at most one of the three classes applies. -/
theorem C22_disjoint (a : Acknowledgement) :
    [a.isError, a.isWarning, a.isSuccess].count true ≤ 1 := by
  simp only [Acknowledgement.isError, Acknowledgement.isWarning, Acknowledgement.isSuccess]
  by_cases h1 : a.code ≥ 9000 <;> by_cases h2 : a.code ≥ 3000 <;> by_cases h3 : a.code < 4000 <;>
    by_cases h4 : a.code > 0 <;> by_cases h5 : a.code < 1000 <;> simp [h1, h2, h3, h4, h5] <;> omega

/-- C22: the codes in no class. -/
theorem C22_none (a : Acknowledgement) :
    (a.isError = false ∧ a.isWarning = false ∧ a.isSuccess = false) ↔
      a.code ≤ 0 ∨ (1000 ≤ a.code ∧ a.code ≤ 2999) ∨ (4000 ≤ a.code ∧ a.code ≤ 8999) := by
  simp only [Acknowledgement.isError, Acknowledgement.isWarning, Acknowledgement.isSuccess,
    Bool.and_eq_false_iff, decide_eq_false_iff_not]
  omega

example : (Acknowledgement.mk .segment 9010 [] c!"Fehler" [] ⟨c!"1", 2⟩ 3).isError = true ∧
    (Acknowledgement.mk .message 3060 [] c!"Hinweis" [] ⟨c!"1", 2⟩ 0).isWarning = true ∧
    (Acknowledgement.mk .message 10 [] c!"ok" [] ⟨c!"1", 2⟩ 0).isSuccess = true ∧
    (Acknowledgement.mk .message 5000 [] [] [] ⟨c!"1", 2⟩ 0).isSuccess = false := by decide

/-! ## C57 -/

/-- C57: the first entry for the segment decides. -/
theorem C57_found (p : List PinTanBusinessTransaction) (id : Str) (n : Bool) :
    needsTan p id = (n, true) ↔
      ∃ pre post, p = pre ++ ⟨id, n⟩ :: post ∧ ∀ tr ∈ pre, tr.segmentID ≠ id := by
  induction p with
  | nil => simp [needsTan]
  | cons tr p ih =>
    unfold needsTan
    split
    · rename_i h
      constructor
      · intro he
        obtain ⟨i, m⟩ := tr
        simp only [Prod.mk.injEq, and_true] at he h
        exact ⟨[], p, by simp [h, he], by simp⟩
      · rintro ⟨pre, post, h1, h2⟩
        cases pre with
        | nil => simp at h1; simp [h1.1]
        | cons q pre =>
          simp at h1
          exact absurd (h1.1 ▸ h) (h2 q (by simp))
    · rename_i h
      rw [ih]
      constructor
      · rintro ⟨pre, post, h1, h2⟩
        exact ⟨tr :: pre, post, by simp [h1], by simpa [h] using h2⟩
      · rintro ⟨pre, post, h1, h2⟩
        cases pre with
        | nil => simp at h1; simp [h1.1] at h
        | cons q pre =>
          simp at h1
          exact ⟨pre, post, h1.2, fun t ht => h2 t (by simp [ht])⟩

/-- C57: without an entry both results are false. -/
theorem C57_missing (p : List PinTanBusinessTransaction) (id : Str) (n : Bool) :
    needsTan p id = (n, false) ↔ n = false ∧ ∀ tr ∈ p, tr.segmentID ≠ id := by
  induction p with
  | nil => simp [needsTan]
  | cons tr p ih =>
    unfold needsTan
    split
    · rename_i h; simp [h]
    · rename_i h; rw [ih]; simp [h]

example : needsTan [⟨c!"HKSAL", false⟩, ⟨c!"HKUEB", true⟩, ⟨c!"HKUEB", false⟩] c!"HKUEB" = (true, true) ∧
    needsTan [⟨c!"HKSAL", true⟩] c!"HKUEB" = (false, false) := by decide

/-! ## C55 -/

theorem skipDash_some {v r : Bytes} : skipDash v = some r ↔ v = 45 :: r := by
  unfold skipDash
  split <;> simp_all

theorem parseDashed_iff {y : Int} {v : Bytes} {t : Civil} :
    parseDashed y v = some t ↔
      ∃ m d, v = 45 :: (m ++ 45 :: d) ∧ m.length = 2 ∧ d.length = 2 ∧ parseMonthDay y (m ++ d) = some t := by
  constructor
  · intro h
    unfold parseDashed at h
    simp only [Option.bind_eq_bind, Option.bind_eq_some_iff, skipDash_some] at h
    obtain ⟨v1, rfl, ⟨m, v2⟩, hm, h⟩ := h
    split at h
    · simp at h
    · rename_i hmr
      simp only [Option.bind_eq_some_iff, skipDash_some] at h
      obtain ⟨v3, rfl, ⟨d, v4⟩, hd, h⟩ := h
      obtain ⟨a, b, e1, ha, hb, e2⟩ := getnumFixed_some hm
      obtain ⟨a', b', e1', ha', hb', e2'⟩ := getnumFixed_some hd
      subst e1' e1
      simp only at h
      refine ⟨[a, b], [a', b'], ?_, rfl, rfl, ?_⟩
      · split at h
        · simp at h
        · rename_i h4
          simp only [ne_eq, Decidable.not_not] at h4
          simp [h4]
      · unfold parseMonthDay
        simp only [List.cons_append, List.nil_append, getnumFixed_digits ha hb, Option.bind_eq_bind,
          Option.bind_some, getnumFixed_digits ha' hb', ← e2, ← e2', if_neg hmr]
        split at h
        · simp at h
        · simpa using h
  · rintro ⟨m, d, rfl, hm, hd, h⟩
    obtain ⟨a, b, rfl⟩ : ∃ a b, m = [a, b] := by match m, hm with | [a, b], _ => exact ⟨a, b, rfl⟩
    obtain ⟨a', b', rfl⟩ : ∃ a b, d = [a, b] := by match d, hd with | [a, b], _ => exact ⟨a, b, rfl⟩
    unfold parseMonthDay at h
    simp only [List.cons_append, List.nil_append, Option.bind_eq_bind, Option.bind_eq_some_iff] at h
    obtain ⟨⟨m, v2⟩, hm, h⟩ := h
    obtain ⟨c, e, e1, hc, he, e2⟩ := getnumFixed_some hm
    simp at e1
    obtain ⟨rfl, rfl, rfl⟩ := e1
    split at h
    · simp at h
    · rename_i hmr
      simp only [Option.bind_eq_some_iff] at h
      obtain ⟨⟨d, v4⟩, hd, h⟩ := h
      unfold parseDashed
      simp only [skipDash, List.cons_append, List.nil_append, Option.bind_eq_bind, Option.bind_some,
        getnumFixed_digits hc he, ← e2, if_neg hmr, hd]
      exact h

/-- `time.Parse("2006-01-02")` accepts the digits of `time.Parse("20060102")` with
dashes between them. -/
theorem parse10_iff {v : Bytes} {t : Civil} :
    parse10 v = some t ↔
      ∃ y m d, v = y ++ 45 :: (m ++ 45 :: d) ∧ y.length = 4 ∧ m.length = 2 ∧ d.length = 2 ∧
        parse8 (y ++ m ++ d) = some t := by
  unfold parse10
  constructor
  · intro h
    split at h
    · simp at h
    · rename_i hc
      simp only [Option.bind_eq_bind, Option.bind_eq_some_iff, parseDashed_iff] at h
      obtain ⟨y, hy, m, d, h1, h2, h3, h4⟩ := h
      simp only [not_or] at hc
      have hl : (v.take 4).length = 4 := by simp; omega
      refine ⟨v.take 4, m, d, by rw [← h1, List.take_append_drop], hl, h2, h3, ?_⟩
      unfold parse8
      rw [if_neg]
      · simp only [List.append_assoc]
        rw [List.take_left' hl, List.drop_left' hl, hy]
        simpa using h4
      · simp only [not_or]
        refine ⟨by simp only [List.length_append, hl]; omega, ?_⟩
        cases v with
        | nil => simp at hl
        | cons a v => simpa using hc.2
  · rintro ⟨y, m, d, rfl, hy, hm, hd, h⟩
    unfold parse8 at h
    split at h
    · simp at h
    · rename_i hc
      simp only [Option.bind_eq_bind, Option.bind_eq_some_iff, List.append_assoc] at h
      rw [List.take_left' hy, List.drop_left' hy] at h
      rw [if_neg]
      · simp only [Option.bind_eq_bind, Option.bind_eq_some_iff, parseDashed_iff]
        rw [List.take_left' hy, List.drop_left' hy]
        obtain ⟨n, h1, h2⟩ := h
        exact ⟨n, h1, m, d, rfl, hm, hd, h2⟩
      · simp only [not_or] at hc ⊢
        refine ⟨by simp only [List.length_append, hy]; omega, ?_⟩
        cases y with
        | nil => simp at hy
        | cons a y => simpa using hc.2

theorem format10_spec {t : Civil} (hy : 0 ≤ t.year) (hy2 : t.year ≤ 9999)
    (hd : ExistingDate t.year t.month t.day) :
    ∃ y m d, format10 t = y ++ 45 :: (m ++ 45 :: d) ∧ y.length = 4 ∧ m.length = 2 ∧ d.length = 2 ∧
      format8 t = y ++ m ++ d := by
  have hmd : t.month ≤ 12 ∧ t.day ≤ 31 := by
    rw [existing_iff] at hd
    have : daysIn t.month t.year ≤ 31 := by
      unfold daysIn; split
      · split <;> omega
      · split <;> omega
    omega
  have l4 : (pad 4 t.year.natAbs).length = 4 := pad_length (by omega) (by omega)
  have l2 : (pad 2 t.month).length = 2 := pad_length (by omega) (by omega)
  have l2' : (pad 2 t.day).length = 2 := pad_length (by omega) (by omega)
  refine ⟨pad 4 t.year.natAbs, pad 2 t.month, pad 2 t.day, ?_, l4, l2, l2', ?_⟩
  · unfold format10 formatYear; rw [if_neg (by omega)]
  · unfold format8 formatYear; rw [if_neg (by omega)]

theorem parse8_format8 {t : Civil} (hy : 0 ≤ t.year) (hy2 : t.year ≤ 9999)
    (hd : ExistingDate t.year t.month t.day) : parse8 (format8 t) = some (newShortDate t) := by
  obtain ⟨g1, g2, g3⟩ := format8_spec hy hy2 hd
  rw [parse8_iff]
  exact ⟨g1, g2.2, g3, hd, rfl⟩

theorem parse10_format10 {t : Civil} (hy : 0 ≤ t.year) (hy2 : t.year ≤ 9999)
    (hd : ExistingDate t.year t.month t.day) : parse10 (format10 t) = some (newShortDate t) := by
  obtain ⟨y, m, d, h1, h2, h3, h4, h5⟩ := format10_spec hy hy2 hd
  rw [parse10_iff]
  exact ⟨y, m, d, h1, h2, h3, h4, h5 ▸ parse8_format8 hy hy2 hd⟩

/-- A calendar day of the years 0 to 9999 at midnight: what `ShortDate` holds. -/
def Day (t : Civil) : Prop :=
  0 ≤ t.year ∧ t.year ≤ 9999 ∧ ExistingDate t.year t.month t.day ∧ t = ⟨t.year, t.month, t.day, 0, 0, 0, 0⟩

/-- The text is the day as `YYYY-MM-DD`. -/
def IsoDay (v : Bytes) (t : Civil) : Prop :=
  ∃ y m d, v = y ++ 45 :: (m ++ 45 :: d) ∧ y.length = 4 ∧ m.length = 2 ∧ d.length = 2 ∧
    DigitString y ∧ DigitString m ∧ DigitString d ∧
    t.year = value y ∧ t.month = value m ∧ t.day = value d ∧ Day t

theorem value_lt : ∀ ds : Bytes, (∀ b ∈ ds, Digit b) → value ds < 10 ^ ds.length := by
  intro ds
  induction ds with
  | nil => simp [value]
  | cons a ds ih =>
    intro hd
    have h1 := ih fun b hb => hd b (by simp [hb])
    have ha := digit_lt (hd a (by simp))
    have : value (a :: ds) = value [a] * 10 ^ ds.length + value ds := by
      rw [show a :: ds = [a] ++ ds from rfl, value_append]
    rw [this]
    have h2 : value [a] = a.toNat - 48 := by simp [value]
    rw [h2, List.length_cons, pow_succ]
    have := Nat.mul_le_mul_right (10 ^ ds.length) ha
    omega

theorem digits_of {ds : Bytes} (h : ∀ b ∈ ds, Digit b) (hl : 0 < ds.length) : DigitString ds :=
  ⟨List.length_pos_iff.1 hl, h⟩

theorem isoDay_iff {v : Bytes} {t : Civil} : parse10 v = some t ↔ IsoDay v t := by
  rw [parse10_iff]
  constructor
  · rintro ⟨y, m, d, h1, h2, h3, h4, h5⟩
    rw [parse8_iff] at h5
    obtain ⟨_, g2, g3, g4, g5⟩ := h5
    simp only [List.mem_append] at g2
    have dy := fun b hb => g2 b (Or.inl (Or.inl hb))
    have dm := fun b hb => g2 b (Or.inl (Or.inr hb))
    have dd := fun b hb => g2 b (Or.inr hb)
    have hmd : t.month ≤ 12 ∧ t.day ≤ 31 := by
      rw [existing_iff] at g4
      have : daysIn t.month t.year ≤ 31 := by
        unfold daysIn; split
        · split <;> omega
        · split <;> omega
      omega
    have vy := value_lt y dy
    have vm := value_lt m dm
    have vd := value_lt d dd
    rw [value_append, value_append, h3, h4] at g3
    rw [h2] at vy; rw [h3] at vm; rw [h4] at vd
    push_cast at g3
    norm_num at g3 vy vm vd
    refine ⟨y, m, d, h1, h2, h3, h4, digits_of dy (by omega), digits_of dm (by omega), digits_of dd (by omega),
      by omega, by omega, by omega, by omega, by omega, g4, g5⟩
  · rintro ⟨y, m, d, h1, h2, h3, h4, dy, dm, dd, e1, e2, e3, g1, g2, g4, g5⟩
    refine ⟨y, m, d, h1, h2, h3, h4, ?_⟩
    rw [parse8_iff]
    refine ⟨by simp [h2, h3, h4], ?_, ?_, g4, g5⟩
    · intro b hb
      simp only [List.mem_append] at hb
      rcases hb with (hb | hb) | hb
      · exact dy.2 b hb
      · exact dm.2 b hb
      · exact dd.2 b hb
    · rw [value_append, value_append, h3, h4, e1, e2, e3]
      push_cast
      norm_num
      omega

/-- C55: a timeframe survives the query string. -/
theorem C55_query_roundtrip (a b : Civil) (ha : Day a) (hb : Day b) :
    fromQuery (toQuery ⟨a, b⟩) = .ok ⟨a, b⟩ := by
  have pa := parse8_format8 ha.1 ha.2.1 ha.2.2.1
  have pb := parse8_format8 hb.1 hb.2.1 hb.2.2.1
  have na : newShortDate a = a := ha.2.2.2.symm
  have nb : newShortDate b = b := hb.2.2.2.symm
  have la := (format8_spec ha.1 ha.2.1 ha.2.2.1).1
  have lb := (format8_spec hb.1 hb.2.1 hb.2.2.1).1
  have e1 : (toQuery ⟨a, b⟩).get b!"from" = format8 a := by
    simp [toQuery, Values.get, Values.set]
  have e2 : (toQuery ⟨a, b⟩).get b!"to" = format8 b := by
    simp [toQuery, Values.get, Values.set]
  unfold fromQuery
  simp only [e1, e2, pa, pb, na, nb]
  rw [if_neg]
  rintro (h | h)
  · rw [h] at la; simp at la
  · rw [h] at lb; simp at lb

/-- C55: what a query is accepted as: both parameters are eight digits naming an
existing day. -/
theorem C55_query_iff (params : Values) (tf : Timeframe) :
    fromQuery params = .ok tf ↔
      ∃ f t, (params b!"from").head? = some f ∧ (params b!"to").head? = some t ∧
        (∀ vt ∈ [(f, tf.startDate), (t, tf.endDate)],
          vt.1.length = 8 ∧ DigitString vt.1 ∧ Day vt.2 ∧
          (value vt.1 : Int) = vt.2.year * 10000 + vt.2.month * 100 + vt.2.day) := by
  have key : ∀ (v : Bytes) (c : Civil), parse8 v = some c ↔ v.length = 8 ∧ DigitString v ∧ Day c ∧
      (value v : Int) = c.year * 10000 + c.month * 100 + c.day := by
    intro v c
    rw [parse8_iff]
    constructor
    · rintro ⟨h1, h2, h3, h4, h5⟩
      have hv := value_lt v h2
      rw [h1] at hv
      have hm : 1 ≤ c.month ∧ c.month ≤ 12 ∧ c.day ≤ 31 := by
        rw [existing_iff] at h4
        have : daysIn c.month c.year ≤ 31 := by
          unfold daysIn; split
          · split <;> omega
          · split <;> omega
        omega
      norm_num at hv
      exact ⟨h1, digits_of h2 (by omega), ⟨by omega, by omega, h4, h5⟩, h3⟩
    · rintro ⟨h1, h2, h3, h4⟩
      exact ⟨h1, h2.2, h4, h3.2.2.1, h3.2.2.2⟩
  have hget : ∀ (k v : Bytes), v ≠ [] → (params.get k = v ↔ (params k).head? = some v) := by
    intro k v hv
    unfold Values.get
    cases params k with
    | nil => simpa using Ne.symm hv
    | cons a l => simp
  unfold fromQuery
  simp only [List.mem_cons, List.not_mem_nil, or_false, forall_eq_or_imp, forall_eq, ← key]
  constructor
  · intro h
    split at h
    · simp at h
    · rename_i hne
      simp only [not_or] at hne
      cases h1 : parse8 (params.get b!"from") with
      | none => simp [h1] at h
      | some a =>
        cases h2 : parse8 (params.get b!"to") with
        | none => simp [h1, h2] at h
        | some b =>
          simp only [h1, h2, Outcome.ok.injEq] at h
          subst h
          exact ⟨_, _, (hget _ _ hne.1).1 rfl, (hget _ _ hne.2).1 rfl, h1, h2⟩
  · rintro ⟨f, t, h1, h2, h3, h4⟩
    have nf : f ≠ [] := by rintro rfl; have := ((key _ _).1 h3).1; simp at this
    have nt : t ≠ [] := by rintro rfl; have := ((key _ _).1 h4).1; simp at this
    have e1 := (hget _ _ nf).2 h1
    have e2 := (hget _ _ nt).2 h2
    rw [e1, e2, if_neg (by simp [nf, nt]), h3, h4]

theorem split_cons_mem {sep : Byte} {s : Bytes} (hs : sep ∉ s) : split sep s = [s] := by
  induction s with
  | nil => rfl
  | cons b r ih =>
    simp only [List.mem_cons, not_or] at hs
    unfold split
    rw [if_neg (by simpa using Ne.symm hs.1), ih hs.2]

theorem split_two {sep : Byte} {s x y : Bytes} :
    split sep s = [x, y] ↔ s = x ++ sep :: y ∧ sep ∉ x ∧ sep ∉ y := by
  induction s generalizing x y with
  | nil => simp [split]
  | cons b r ih =>
    unfold split
    by_cases hb : b = sep
    · subst hb
      simp only [beq_self_eq_true, if_true, List.cons.injEq]
      constructor
      · rintro ⟨rfl, h⟩
        have : b ∉ r := by
          intro hm
          -- a separator in the rest gives at least two more parts
          have : ∀ r : Bytes, b ∈ r → 2 ≤ (split b r).length := by
            intro r
            induction r with
            | nil => simp
            | cons c r ih2 =>
              intro hc
              unfold split
              split
              · rename_i h1
                have : 1 ≤ (split b r).length := by
                  cases r with
                  | nil => simp [split]
                  | cons d r =>
                    unfold split; split
                    · simp
                    · split <;> simp
                simp; omega
              · rename_i h1
                simp at h1
                simp at hc
                have := ih2 (hc.resolve_left (Ne.symm h1))
                split
                · rename_i h2; simp [h2] at this
                · rename_i h2; simpa [h2] using this
          have := this r hm
          rw [h] at this
          simp at this
        rw [split_cons_mem this] at h
        simp at h
        subst h
        exact ⟨rfl, by simp, this⟩
      · rintro ⟨h1, h2, h3⟩
        cases x with
        | nil =>
          simp at h1
          rw [h1, split_cons_mem h3]
          exact ⟨rfl, rfl⟩
        | cons c x =>
          simp at h1 h2
          exact absurd h1.1 h2.1
    · rw [if_neg (by simpa using hb)]
      cases hr : split sep r with
      | nil =>
        simp only [List.cons.injEq, List.nil_eq, reduceCtorEq, and_false, false_iff, not_and]
        rintro h1 h2 h3
        cases x with
        | nil => simp at h1; exact absurd h1.1 hb
        | cons c x =>
          simp at h1 h2
          have := (ih (x := x) (y := y)).2 ⟨h1.2, h2.2, h3⟩
          simp [hr] at this
      | cons p ps =>
        simp only [List.cons.injEq]
        constructor
        · rintro ⟨rfl, rfl⟩
          obtain ⟨h1, h2, h3⟩ := (ih (x := p) (y := y)).1 hr
          exact ⟨by simp [h1], by simp [h2, Ne.symm hb], h3⟩
        · rintro ⟨h1, h2, h3⟩
          cases x with
          | nil => simp at h1; exact absurd h1.1 hb
          | cons c x =>
            simp at h1 h2
            have := (ih (x := x) (y := y)).2 ⟨h1.2, h2.2, h3⟩
            rw [hr] at this
            simp at this
            simp [this, h1.1]

/-- Text whose double quoted form is itself: no quote, backslash or newline. -/
def PlainText (s : Bytes) : Prop := ∀ b ∈ s, b ≠ 34 ∧ b ≠ 92 ∧ b ≠ 10

theorem unquote_plain {rest : Bytes → Option Bytes} {s : Bytes} (h : PlainText s) :
    unquote rest (34 :: (s ++ [34])) = some s := by
  unfold unquote
  simp only [List.getLast?_append, List.getLast?_singleton, Option.some_or, List.dropLast_concat, true_and]
  rw [if_pos]
  rw [List.all_eq_true]
  intro b hb
  have := h b hb
  simp [this]

theorem isoDay_bytes {v : Bytes} {t : Civil} (h : IsoDay v t) : ∀ b ∈ v, Digit b ∨ b = 45 := by
  obtain ⟨y, m, d, h1, _, _, _, dy, dm, dd, _⟩ := h
  subst h1
  intro b hb
  simp only [List.mem_append, List.mem_cons] at hb
  rcases hb with hb | hb | hb | hb | hb
  · exact Or.inl (dy.2 b hb)
  · exact Or.inr hb
  · exact Or.inl (dm.2 b hb)
  · exact Or.inr hb
  · exact Or.inl (dd.2 b hb)

theorem isoDay_plain {v : Bytes} {t : Civil} (h : IsoDay v t) : PlainText v ∧ (44 : Byte) ∉ v := by
  have h1 := isoDay_bytes h
  constructor
  · intro b hb
    rcases h1 b hb with h2 | h2
    · unfold Digit at h2
      refine ⟨?_, ?_, ?_⟩ <;> rintro rfl <;> simp at h2
    · subst h2; decide
  · intro hb
    rcases h1 _ hb with h2 | h2
    · unfold Digit at h2; simp at h2
    · simp at h2

/-- C55: which JSON text denotes a timeframe.  Plain quoted text is read as the days
`a` and `b` exactly if it is the two ISO dates with a comma between them; all other
text becomes the zero timeframe, and never an error. -/
theorem C55_json_text (rest : Bytes → Option Bytes) (s : Bytes) (hs : PlainText s) :
    (∀ a b, (∃ x y, s = x ++ 44 :: y ∧ IsoDay x a ∧ IsoDay y b) →
      unmarshalTimeframeJSON rest (34 :: (s ++ [34])) = ⟨a, b⟩) ∧
    ((¬ ∃ a b x y, s = x ++ 44 :: y ∧ IsoDay x a ∧ IsoDay y b) →
      unmarshalTimeframeJSON rest (34 :: (s ++ [34])) = .zero) := by
  constructor
  · rintro a b ⟨x, y, h1, h2, h3⟩
    unfold unmarshalTimeframeJSON
    rw [unquote_plain hs, Option.getD_some]
    rw [split_two.2 ⟨h1, (isoDay_plain h2).2, (isoDay_plain h3).2⟩]
    simp only [isoDay_iff.2 h2, isoDay_iff.2 h3]
  · intro hn
    unfold unmarshalTimeframeJSON
    rw [unquote_plain hs, Option.getD_some]
    split
    · rename_i x y hx
      have h1 := split_two.1 hx
      split
      · rename_i a b ha hb
        exact absurd ⟨a, b, x, y, h1.1, isoDay_iff.1 ha, isoDay_iff.1 hb⟩ hn
      · rfl
    · rfl

/-- C55: JSON data that is not a Go quoted string becomes the zero timeframe, too. -/
theorem C55_json_unquoted (rest : Bytes → Option Bytes) (data : Bytes) (h : unquote rest data = none) :
    unmarshalTimeframeJSON rest data = .zero := by
  unfold unmarshalTimeframeJSON
  rw [h]
  rfl

theorem isoDay_format {t : Civil} (h : Day t) : IsoDay (format10 t) t := by
  rw [← isoDay_iff, parse10_format10 h.1 h.2.1 h.2.2.1]
  exact congrArg some h.2.2.2.symm

theorem plainText_join {x y : Bytes} (hx : PlainText x) (hy : PlainText y) : PlainText (x ++ 44 :: y) := by
  intro b hb
  simp only [List.mem_append, List.mem_cons] at hb
  rcases hb with hb | rfl | hb
  · exact hx b hb
  · decide
  · exact hy b hb

/-- 1 January of year 1, the day Go takes for "not set". -/
def Unset (t : Civil) : Prop := t.year = 1 ∧ t.month = 1 ∧ t.day = 1

theorem isZero_iff {t : Civil} (h : Day t) : isZero t = true ↔ Unset t := by
  obtain ⟨_, _, _, h⟩ := h
  unfold isZero Unset
  rw [h]
  simp

/-- C55: a timeframe of days other than 1 January of year 1 survives JSON. -/
theorem C55_json_roundtrip (rest : Bytes → Option Bytes) (a b : Civil) (ha : Day a) (hb : Day b)
    (na : ¬ Unset a) (nb : ¬ Unset b) :
    unmarshalTimeframeJSON rest (marshalTimeframeJSON ⟨a, b⟩) = ⟨a, b⟩ := by
  have ia := isoDay_format ha
  have ib := isoDay_format hb
  unfold marshalTimeframeJSON
  rw [if_neg]
  · exact (C55_json_text rest _ (plainText_join (isoDay_plain ia).1 (isoDay_plain ib).1)).1 a b
      ⟨_, _, rfl, ia, ib⟩
  · simp only [Bool.or_eq_true]
    rw [isZero_iff ha, isZero_iff hb]
    tauto

/-- C55: if one of the dates is not set, both are lost. -/
theorem C55_json_unset (rest : Bytes → Option Bytes) (a b : Civil) (ha : Day a) (hb : Day b)
    (h : Unset a ∨ Unset b) :
    unmarshalTimeframeJSON rest (marshalTimeframeJSON ⟨a, b⟩) = .zero := by
  unfold marshalTimeframeJSON
  rw [if_pos]
  · refine (C55_json_text rest [] (by intro b hb; simp at hb)).2 ?_
    rintro ⟨a, b, x, y, h, _⟩
    simp at h
  · simp only [Bool.or_eq_true]
    rw [isZero_iff ha, isZero_iff hb]
    exact h

/-- C55: a single date survives JSON exactly if it is set; an unset date is written as
empty text, which is an error when read. -/
theorem C55_date_json (rest : Bytes → Option Bytes) (a : Civil) (ha : Day a) :
    unmarshalDateJSON rest (marshalDateJSON a) =
      (a, decide (a.year = 1 ∧ a.month = 1 ∧ a.day = 1)) := by
  by_cases h : Unset a
  · rw [decide_eq_true (show _ ∧ _ from h)]
    unfold marshalDateJSON
    rw [if_pos ((isZero_iff ha).2 h)]
    unfold unmarshalDateJSON jsonQuote
    rw [unquote_plain (by intro b hb; simp at hb)]
    have : parse10 ((some ([] : Bytes)).getD []) = none := by decide
    rw [this]
    obtain ⟨h1, h2, h3⟩ := h
    have := ha.2.2.2
    rw [h1, h2, h3] at this
    simp [zeroTime, this]
  · rw [decide_eq_false (show ¬ (_ ∧ _) from h)]
    unfold marshalDateJSON
    rw [if_neg (fun hz => h ((isZero_iff ha).1 hz))]
    unfold unmarshalDateJSON jsonQuote
    have ia := isoDay_format ha
    rw [unquote_plain (isoDay_plain ia).1, Option.getD_some, isoDay_iff.2 ia]

/-- C55: `UnmarshalText` succeeds exactly on ISO dates and otherwise keeps the old value. -/
theorem C55_date_text (old t : Civil) (v : Bytes) :
    (unmarshalDateText old v = (t, false) ↔ IsoDay v t) ∧
    (unmarshalDateText old v = (t, true) ↔ t = old ∧ ∀ u, ¬ IsoDay v u) := by
  unfold unmarshalDateText
  simp only [← isoDay_iff]
  cases parse10 v with
  | none => simp [eq_comm]
  | some u => simp

example : Day ⟨2024, 2, 29, 0, 0, 0, 0⟩ ∧ ¬ Unset ⟨2024, 2, 29, 0, 0, 0, 0⟩ := by
  unfold Day Unset ExistingDate LeapYear; decide
example : fromQuery (toQuery ⟨⟨2024, 2, 29, 0, 0, 0, 0⟩, ⟨2024, 12, 31, 0, 0, 0, 0⟩⟩) =
    .ok ⟨⟨2024, 2, 29, 0, 0, 0, 0⟩, ⟨2024, 12, 31, 0, 0, 0, 0⟩⟩ := by decide +kernel
example : marshalTimeframeJSON ⟨⟨2024, 2, 29, 0, 0, 0, 0⟩, ⟨2024, 12, 31, 0, 0, 0, 0⟩⟩ =
    b!"\"2024-02-29,2024-12-31\"" := by decide +kernel
example : unmarshalTimeframeJSON (fun _ => none) b!"\"2024-02-30,2024-12-31\"" = .zero ∧
    unmarshalTimeframeJSON (fun _ => none) b!"12" = .zero := by decide +kernel

end Verif.Domain

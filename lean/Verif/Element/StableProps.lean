import Verif.Element.Props

/-
C118: what was read can be written, and is read the same again.
-/

namespace Verif.Element

open GoLib Charset Element.Spec Verif.Token.Spec

/-! ## Specification -/

/-- In these bytes every sign with a meaning in HBCI is preceded by the escape sign, and nothing else is. -/
inductive Protected : Bytes → Prop
  | nil : Protected []
  | plain {c : Byte} {r : Bytes} : c ∉ b!"?@':+" → Protected r → Protected (c :: r)
  | escaped {c : Byte} {r : Bytes} : c ∈ b!"?@':+" → Protected r → Protected (63 :: c :: r)

/-! ## Texts -/

theorem special_toUTF8 (c : Byte) : special (Char.ofNat c.toNat) = decide (c ∈ b!"?@':+") := by
  revert c
  decide +kernel

theorem unescape_latin1 : ∀ (s : Str), Latin1 s → Latin1 (unescape s)
  | [], h => h
  | c :: r, h => by
    unfold unescape
    split
    · rename_i d r' heq
      obtain ⟨rfl, rfl⟩ := List.cons.inj heq
      have h1 : Latin1 r' := fun x hx => h x (by simp [hx])
      have h2 : Latin1 (d :: r') := fun x hx => h x (List.mem_cons_of_mem _ hx)
      split
      · intro x hx
        rcases List.mem_cons.1 hx with rfl | hx
        · exact h x (by simp)
        · exact unescape_latin1 r' h1 x hx
      · intro x hx
        rcases List.mem_cons.1 hx with rfl | hx
        · exact h _ (by simp)
        · exact unescape_latin1 (d :: r') h2 x hx
    · rename_i heq
      obtain ⟨rfl, rfl⟩ := List.cons.inj heq
      intro x hx
      rcases List.mem_cons.1 hx with rfl | hx
      · exact h _ (by simp)
      · exact unescape_latin1 r (fun y hy => h y (by simp [hy])) x hx
    · rename_i heq
      simp at heq

theorem enc_escape_protected {s : Str} (h : Latin1 s) : Protected (enc (escape s)) := by
  induction s with
  | nil => exact .nil
  | cons c s ih =>
    have hc := h c (by simp)
    have hs := special_toUTF8 (UInt8.ofNat c.toNat)
    rw [char_back hc] at hs
    have hr := ih fun x hx => h x (by simp [hx])
    rw [escape_cons, enc_append]
    by_cases hsp : special c = true
    · rw [if_pos hsp]
      exact .escaped (of_decide_eq_true (hs ▸ hsp)) hr
    · rw [if_neg hsp]
      exact .plain (of_decide_eq_false (by rw [← hs]; simpa using hsp)) hr

theorem toUTF8_cons (c : Byte) (r : Bytes) : toUTF8 (c :: r) = Char.ofNat c.toNat :: toUTF8 r := rfl

theorem escape_of_protected {b : Bytes} (h : Protected b) : escape (unescape (toUTF8 b)) = toUTF8 b := by
  induction h with
  | nil => rfl
  | @plain c r hc hr ih =>
    have hs : special (Char.ofNat c.toNat) = false := by rw [special_toUTF8]; simpa using hc
    have hu : unescape (Char.ofNat c.toNat :: toUTF8 r) = Char.ofNat c.toNat :: unescape (toUTF8 r) := by
      have hq : Char.ofNat c.toNat ≠ '?' := by
        intro hq
        rw [hq] at hs
        exact absurd hs (by decide)
      conv => lhs; unfold unescape
      split
      · rename_i heq
        exact absurd (List.cons.inj heq).1 hq
      · rename_i heq
        obtain ⟨rfl, rfl⟩ := List.cons.inj heq
        rfl
      · rename_i heq
        simp at heq
    rw [toUTF8_cons, hu, escape_cons, ih, hs]
    rfl
  | @escaped c r hc hr ih =>
    have hs : special (Char.ofNat c.toNat) = true := by rw [special_toUTF8]; simpa using hc
    have hu : unescape ('?' :: Char.ofNat c.toNat :: toUTF8 r) = Char.ofNat c.toNat :: unescape (toUTF8 r) := by
      rw [unescape, if_pos hs]
    rw [toUTF8_cons, toUTF8_cons, show Char.ofNat (63 : Byte).toNat = '?' from rfl, hu, escape_cons, ih, hs]
    rfl

/-- C118: whatever bytes are read as a text, the text can be written and is read the same again.  The same bytes are
written exactly if all signs with a meaning, and only these, were escaped. -/
theorem C118_text (b : Bytes) :
    ∃ m, marshalText (unmarshalText b) = .ok m ∧ unmarshalText m = unmarshalText b ∧ (m = b ↔ Protected b) := by
  have hl : Latin1 (unmarshalText b) := unescape_latin1 _ (latin1_toUTF8 b)
  refine ⟨enc (escape (unmarshalText b)), toISO_ok (escape_latin1.2 hl), ?_, ?_, ?_⟩
  · rw [show ∀ m, unmarshalText m = unescape (toUTF8 m) from fun _ => rfl, toUTF8_enc (escape_latin1.2 hl), unescape_escape]
  · intro h
    have := enc_escape_protected hl
    rwa [h] at this
  · intro h
    unfold unmarshalText
    rw [escape_of_protected h, enc_toUTF8]

/-- A concrete case: an escaped sign, a needless escape and an unescaped sign. -/
example : Protected b!"a?+b" ∧ ¬ Protected b!"a?b" ∧ unmarshalText b!"a?b" = c!"a?b" ∧ marshalText c!"a?b" = .ok b!"a??b" := by
  refine ⟨.plain (by decide) (.escaped (by decide) (.plain (by decide) .nil)), ?_, by decide, by decide⟩
  intro h
  cases h with
  | plain _ h =>
    cases h with
    | plain h _ => exact h (by decide)
    | escaped h _ => exact absurd h (by decide)

/-! ## Numbers, dates, booleans and binary data -/

/-- C118: a number that was read is written with at most as many characters, and is read the same again. -/
theorem C118_number {b : Bytes} {n : Int} (h : unmarshalNumber b = .ok n) :
    unmarshalNumber (marshalNumber n) = .ok n ∧ (marshalNumber n).length ≤ b.length := by
  refine ⟨C09_number n ((C09_accepts b n).1 h).2, ?_⟩
  have := C63_number_valid h
  simpa [intIsValid, marshalNumber] using this

/-- A concrete case: leading zeros and a plus sign are dropped. -/
example : unmarshalNumber b!"+007" = .ok 7 ∧ marshalNumber 7 = b!"7" := by decide

theorem value_lt {ds : Bytes} (h : ∀ b ∈ ds, Digit b) : value ds < 10 ^ ds.length := by
  induction ds with
  | nil => simp [value]
  | cons a ds ih =>
    have := ih fun b hb => h b (by simp [hb])
    have ha := digit_lt (h a (by simp))
    simp only [value, List.length_cons, Nat.pow_succ]
    have hmul : (a.toNat - 48) * 10 ^ ds.length ≤ 9 * 10 ^ ds.length := Nat.mul_le_mul_right _ ha
    omega

theorem value_inj : ∀ {a b : Bytes}, (∀ x ∈ a, Digit x) → (∀ x ∈ b, Digit x) → a.length = b.length → value a = value b → a = b
  | [], [], _, _, _, _ => rfl
  | x :: a, y :: b, ha, hb, hl, hv => by
    have hl' : a.length = b.length := by simpa using hl
    have h1 := value_lt (ds := a) fun z hz => ha z (by simp [hz])
    have h2 := value_lt (ds := b) fun z hz => hb z (by simp [hz])
    have hx := ha x (by simp)
    have hy := hb y (by simp)
    simp only [value] at hv
    rw [hl'] at hv h1
    have hq : x.toNat - 48 = y.toNat - 48 := by
      have e1 : ((x.toNat - 48) * 10 ^ b.length + value a) / 10 ^ b.length = x.toNat - 48 := by
        rw [Nat.mul_comm, Nat.mul_add_div (Nat.pow_pos (by decide)), Nat.div_eq_of_lt h1, Nat.add_zero]
      have e2 : ((y.toNat - 48) * 10 ^ b.length + value b) / 10 ^ b.length = y.toNat - 48 := by
        rw [Nat.mul_comm, Nat.mul_add_div (Nat.pow_pos (by decide)), Nat.div_eq_of_lt h2, Nat.add_zero]
      rw [← e1, ← e2, hv]
    have hv' : value a = value b := by rw [hq] at hv; omega
    have hxy : x = y := by
      apply UInt8.toNat_inj.1
      unfold Digit at hx hy
      omega
    rw [hxy, value_inj (fun z hz => ha z (by simp [hz])) (fun z hz => hb z (by simp [hz])) hl' hv']

/-- C118: a date that was read is written with the same bytes. -/
theorem C118_date {b : Bytes} {t : Time.Civil} (h : unmarshalDate b = .ok t) : marshalDate t = b := by
  obtain ⟨h1, h2, h3, h4, h5⟩ := (C10_date_iff b t).1 h
  have hv := value_lt h2
  rw [h1] at hv
  have hb : 1 ≤ t.month ∧ t.month ≤ 12 ∧ t.day ≤ 31 := by
    have h4' := h4
    unfold ExistingDate at h4'
    simp only [List.mem_cons, List.not_mem_nil, or_false] at h4'
    omega
  obtain ⟨g1, g2, g3⟩ := format8_spec (t := t) (by omega) (by omega) h4
  unfold marshalDate
  exact value_inj g2.2 h2 (by rw [g1, h1]) (by omega)

/-- C118: a time that was read is written without the fraction of a second, and is read the same again exactly if it
had none. -/
theorem C118_time {b : Bytes} {t : Time.Civil} (h : unmarshalTime b = .ok t) :
    marshalTime t = b.take 6 ∧ (unmarshalTime (marshalTime t) = .ok t ↔ t.nsec = 0) := by
  obtain ⟨a, f, rfl, h1, h2, h3, h4, h5, h6⟩ := (C10_time_iff b t).1 h
  obtain ⟨g1, g2, g3⟩ := format6_spec h5
  refine ⟨?_, ?_⟩
  · rw [List.take_left' h1]
    unfold marshalTime
    exact value_inj g2.2 h2 (by rw [g1, h1]) (by omega)
  · rw [C10_time_roundtrip t h5, Outcome.ok.injEq]
    constructor
    · intro he
      exact (congrArg Time.Civil.nsec he).symm
    · intro he
      rw [h6, he]

/-- Concrete cases: a date, a time, and a time with half a second. -/
example : unmarshalDate b!"20240229" = .ok ⟨2024, 2, 29, 0, 0, 0, 0⟩ ∧ unmarshalTime b!"235959" = .ok ⟨0, 1, 1, 23, 59, 59, 0⟩ ∧
    unmarshalTime b!"120000,5" = .ok ⟨0, 1, 1, 12, 0, 0, 500000000⟩ := by decide

/-- C118: a boolean that was read is written with the same bytes. -/
theorem C118_bool {b : Bytes} {v : Bool} (h : unmarshalBool b = .ok v) : marshalBool v = b :=
  ((C11_bool b v).1 h).symm

/-- C118: binary data that was read is read the same again, although bytes may have been cut off or
added. -/
theorem C118_binary {b d : Bytes} (h : unmarshalBinary b = .ok d) : unmarshalBinary (marshalBinary d) = .ok d := by
  obtain ⟨s, rest, n, _, _, _, h1, _, h2, _⟩ := (C08_decode_iff b d).1 h
  exact C07_roundtrip d (by omega)

/-- C118: an amount that was read is read the same again. -/
theorem C118_float {b : Bytes} {x : Dec} (h : unmarshalFloat b = .ok x) : unmarshalFloat (floatString x) = .ok x := by
  refine (C62_float ?_).1
  unfold unmarshalFloat at h
  generalize replaceFirst 44 46 b = s at h
  unfold parseFloat at h
  simp only at h
  split at h
  · split at h
    · simp at h
    · simp only [Outcome.ofOption, Outcome.ok.injEq] at h
      subst h
      exact ⟨by simp, by simp⟩
  · rename_i c fr _
    split at h
    · rename_i hc
      simp only [Outcome.ofOption, Outcome.ok.injEq] at h
      subst h
      simp only [Bool.and_eq_true] at hc
      refine ⟨fun x hx => ?_, trimRight_getLast? _ _⟩
      obtain ⟨k, hk⟩ := trimRight_spec 48 fr
      have := List.all_eq_true.1 hc.1.2 x (by rw [hk]; simp [hx])
      simp only [isDigit, Bool.and_eq_true, decide_eq_true_eq] at this
      exact ⟨UInt8.le_iff_toNat_le.1 this.1, UInt8.le_iff_toNat_le.1 this.2⟩
    · simp at h

/-- Concrete cases: data that was cut off, and an amount with needless zeros. -/
example : unmarshalBool b!"J" = .ok true ∧ unmarshalBinary b!"@4@ab" = .ok [97, 98, 0, 0] ∧
    unmarshalFloat b!"007,50" = .ok ⟨false, 7, b!"5"⟩ ∧ floatString ⟨false, 7, b!"5"⟩ = b!"7,5" := by decide

end Verif.Element

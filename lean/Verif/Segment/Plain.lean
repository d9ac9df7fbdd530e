import Verif.Segment.Sound

/-
A simple condition on the contents under which nothing is cut off.
-/

namespace Verif.Segment

open GoLib Element Element.Spec Segment.Spec Verif.Token.Spec Token

/-- Texts that travel unchanged wherever they stand: no NUL, not like a malformed
number, no `:` or `+` at the end. -/
def PlainText (v : Str) : Prop :=
  '\x00' ∉ v ∧ ¬ LikeMalformedFloat v ∧ v.getLast? ≠ some ':' ∧ v.getLast? ≠ some '+'

/-- Binary data that travels unchanged wherever it stands. -/
def PlainData (d : Bytes) : Prop := d.getLast? ≠ some 58 ∧ d.getLast? ≠ some 43

mutual
/-- Elements all of whose contents are plain. -/
def Plain : DE → Prop
  | .group _ es => PlainAll es
  | .array _ _ es => PlainAll es
  | .alnum v _ | .text v _ | .code v _ _ | .identification v _ | .currency v _ => PlainText v
  | .float v _ | .value v _ => v.Canonical
  | .binary d _ | .dtaus d _ => PlainData d
  | .digit _ _ | .number _ _ | .boolean _ | .date _ | .virtualDate _ _ | .time _ | .countryCode _ _ => True

/-- All elements of a list. -/
def PlainAll : List (Option DE) → Prop
  | [] => True
  | e :: r => PlainOpt e ∧ PlainAll r

/-- Absent elements are plain. -/
def PlainOpt : Option DE → Prop
  | none => True
  | some e => Plain e
end

theorem plainAll_iff {es : List (Option DE)} : PlainAll es ↔ ∀ e, some e ∈ es → Plain e := by
  induction es with
  | nil => simp [PlainAll]
  | cons e r ih =>
    rw [PlainAll, ih]
    cases e with
    | none => simp [PlainOpt]
    | some e =>
      simp only [PlainOpt, List.mem_cons, Option.some.injEq]
      constructor
      · rintro ⟨h1, h2⟩ x (rfl | hx)
        · exact h1
        · exact h2 x hx
      · intro h
        exact ⟨h e (Or.inl rfl), fun x hx => h x (Or.inr hx)⟩

/-- A wire value free of `?`, not binary, contains no delimiter. -/
theorem last_of_mem {p : Bytes} (h : ∀ b ∈ p, Digit b ∨ b = 45 ∨ b = 44 ∨ b = 74 ∨ b = 78) : PlainData p := by
  constructor <;> intro hl <;> have := h _ (List.mem_of_getLast? hl) <;> revert this <;> simp [Digit]

theorem natDec_mem {n : Nat} {b : Byte} (h : b ∈ natDec n) : Digit b := (natDec_digits n).2 b h

theorem itoa_mem {n : Int} {b : Byte} (h : b ∈ itoa n) : Digit b ∨ b = 45 := by
  unfold itoa at h
  split at h
  · rcases List.mem_cons.1 h with rfl | h
    · exact Or.inr rfl
    · exact Or.inl (natDec_mem h)
  · exact Or.inl (natDec_mem h)

theorem zeroPad_mem {w : Nat} {n : Int} {b : Byte} (h : b ∈ zeroPad w n) : Digit b ∨ b = 45 := by
  have h48 : Digit 48 := by simp [Digit]
  unfold zeroPad at h
  dsimp only at h
  split at h
  · rcases List.mem_cons.1 h with rfl | h
    · exact Or.inr rfl
    · rcases List.mem_append.1 h with h | h
      · rw [(List.mem_replicate.1 h).2]; exact Or.inl h48
      · exact Or.inl (natDec_mem h)
  · rcases List.mem_append.1 h with h | h
    · rw [(List.mem_replicate.1 h).2]; exact Or.inl h48
    · exact Or.inl (natDec_mem h)

theorem pad_mem {w n : Nat} {b : Byte} (h : b ∈ Time.pad w n) : Digit b := (pad_digits w n).2 b h

theorem plainText_last {v : Str} (hl : Latin1 v) (h : PlainText v) : PlainData (enc (escape v)) := by
  rcases List.eq_nil_or_concat v with rfl | ⟨w, c, rfl⟩
  · simp [escape, enc, PlainData]
  · have hc : c.toNat ≤ 255 := hl c (by simp)
    have h1 : c ≠ ':' := by intro he; exact h.2.2.1 (by simp [he])
    have h2 : c ≠ '+' := by intro he; exact h.2.2.2 (by simp [he])
    have hlast : (enc (escape (w.concat c))).getLast? = some (UInt8.ofNat c.toNat) := by
      rw [List.concat_eq_append, escape_append, enc_append, List.getLast?_append]
      have : (enc (escape [c])).getLast? = some (UInt8.ofNat c.toNat) := by
        rw [escape_cons]
        split <;> simp [escape, enc]
      rw [this]; rfl
    unfold PlainData
    rw [hlast]
    constructor
    · intro he
      have := (enc_eq_iff hc 58).1 (by simpa using he)
      exact h1 (Char.ext (UInt32.toNat_inj.1 (by simpa using this)))
    · intro he
      have := (enc_eq_iff hc 43).1 (by simpa using he)
      exact h2 (Char.ext (UInt32.toNat_inj.1 (by simpa using this)))

theorem plainData_last {d : Bytes} (h : PlainData d) : PlainData (marshalBinary d) := by
  unfold marshalBinary PlainData
  rw [List.getLast?_append]
  cases d with
  | nil => simp
  | cons b d =>
    have e : (64 :: (b :: d)).getLast? = (b :: d).getLast? := by rw [List.getLast?_cons_cons]
    rw [e]
    unfold PlainData at h
    cases hb : (b :: d).getLast? with
    | none => simp at hb
    | some x => rw [hb] at h; exact ⟨by simpa using h.1, by simpa using h.2⟩

theorem text_plain_last {v : Str} {p : Bytes} (h : PlainText v) (hm : marshalText v = .ok p) : PlainData p := by
  obtain ⟨hl, rfl⟩ := toISO_eq_ok.1 hm
  exact plainText_last (escape_latin1.1 hl) h

theorem float_plain_last {x : Dec} (h : x.Canonical) : PlainData (floatString x) := by
  apply last_of_mem
  intro b hb
  rw [floatString_eq] at hb
  rcases List.mem_append.1 hb with hb | hb
  · unfold Dec.head at hb
    rcases List.mem_append.1 hb with hb | hb
    · split at hb
      · simp at hb; simp [hb]
      · simp at hb
    · exact Or.inl (natDec_mem hb)
  · rcases List.mem_cons.1 hb with rfl | hb
    · simp
    · exact Or.inl (h.1 b hb)

theorem notCut_of_last {es : List (Option DE)} {c : Byte} (hc : c = 58 ∨ c = 43)
    (h : ∀ ps, DE.marshalAll es = .ok ps → ∀ p ∈ ps, PlainData p) : NotCut c es := by
  intro ps out p hps hd hl
  obtain ⟨k, he, _⟩ := hd
  have := h ps (marshalAll_ok.2 hps) p (by rw [he]; exact List.mem_append_left _ (List.mem_of_getLast? hl))
  rcases hc with rfl | rfl
  · exact this.1
  · exact this.2

theorem group_plain_last {es : List (Option DE)} {ps : List Bytes} (hps : DE.marshalAll es = .ok ps)
    (h : ∀ ps, DE.marshalAll es = .ok ps → ∀ p ∈ ps, PlainData p) :
    PlainData (trimRight 58 (join 58 ps)) := by
  rcases group_bytes (marshalAll_ok.1 hps) (notCut_of_last (Or.inl rfl) h) with ⟨h1, _⟩ | ⟨init, p, k, hne, he, _, h1⟩
  · rw [h1]; simp [PlainData]
  · rw [h1]
    have := h ps hps p (by simp [he])
    unfold PlainData at this ⊢
    rw [List.getLast?_append]
    cases hp : p.getLast? with
    | none => simp at hp; exact absurd hp hne
    | some x => rw [hp] at this; exact ⟨by simpa using this.1, by simpa using this.2⟩

mutual
/-- Plain elements do not end in a separator. -/
theorem plain_last : (e : DE) → Plain e → ∀ p, e.marshal = .ok p → PlainData p
  | .group n es, h, p, hm => by
    rw [Plain] at h
    rw [DE.marshal] at hm
    cases ha : DE.marshalAll es with
    | err => rw [ha] at hm; simp at hm
    | panic => rw [ha] at hm; simp at hm
    | ok ps =>
      rw [ha] at hm
      simp at hm
      rw [← hm]
      exact group_plain_last ha (plains_last es h)
  | .array a b es, h, p, hm => by
    rw [Plain] at h
    rw [DE.marshal] at hm
    cases ha : DE.marshalAll es with
    | err => rw [ha] at hm; simp at hm
    | panic => rw [ha] at hm; simp at hm
    | ok ps =>
      rw [ha] at hm
      simp at hm
      rw [← hm]
      exact group_plain_last ha (plains_last es h)
  | .alnum v m, h, p, hm => by rw [Plain] at h; rw [DE.marshal] at hm; exact text_plain_last h hm
  | .text v m, h, p, hm => by rw [Plain] at h; rw [DE.marshal] at hm; exact text_plain_last h hm
  | .code v m s, h, p, hm => by rw [Plain] at h; rw [DE.marshal] at hm; exact text_plain_last h hm
  | .identification v m, h, p, hm => by rw [Plain] at h; rw [DE.marshal] at hm; exact text_plain_last h hm
  | .currency v m, h, p, hm => by rw [Plain] at h; rw [DE.marshal] at hm; exact text_plain_last h hm
  | .float v m, h, p, hm => by rw [Plain] at h; rw [DE.marshal] at hm; cases hm; exact float_plain_last h
  | .value v m, h, p, hm => by rw [Plain] at h; rw [DE.marshal] at hm; cases hm; exact float_plain_last h
  | .binary v m, h, p, hm => by rw [Plain] at h; rw [DE.marshal] at hm; cases hm; exact plainData_last h
  | .dtaus v m, h, p, hm => by rw [Plain] at h; rw [DE.marshal] at hm; cases hm; exact plainData_last h
  | .digit v m, _, p, hm => by
    rw [DE.marshal] at hm; cases hm
    exact last_of_mem fun b hb => (zeroPad_mem hb).imp id Or.inl
  | .number v m, _, p, hm => by
    rw [DE.marshal] at hm; cases hm
    exact last_of_mem fun b hb => (itoa_mem hb).imp id Or.inl
  | .virtualDate v m, _, p, hm => by
    rw [DE.marshal] at hm; cases hm
    exact last_of_mem fun b hb => (itoa_mem hb).imp id Or.inl
  | .countryCode v m, _, p, hm => by
    rw [DE.marshal] at hm; cases hm
    exact last_of_mem fun b hb => (zeroPad_mem hb).imp id Or.inl
  | .boolean v, _, p, hm => by
    rw [DE.marshal] at hm; cases hm
    cases v <;> simp [marshalBool, PlainData]
  | .date t, _, p, hm => by
    rw [DE.marshal] at hm; cases hm
    apply last_of_mem
    intro b hb
    unfold marshalDate Time.format8 Time.formatYear at hb
    rcases List.mem_append.1 hb with hb | hb
    · rcases List.mem_append.1 hb with hb | hb
      · split at hb
        · rcases List.mem_cons.1 hb with rfl | hb
          · simp
          · exact Or.inl (pad_mem hb)
        · exact Or.inl (pad_mem hb)
      · exact Or.inl (pad_mem hb)
    · exact Or.inl (pad_mem hb)
  | .time t, _, p, hm => by
    rw [DE.marshal] at hm; cases hm
    apply last_of_mem
    intro b hb
    unfold marshalTime Time.format6 at hb
    rcases List.mem_append.1 hb with hb | hb
    · rcases List.mem_append.1 hb with hb | hb
      · exact Or.inl (pad_mem hb)
      · exact Or.inl (pad_mem hb)
    · exact Or.inl (pad_mem hb)

/-- The same for lists of elements. -/
theorem plains_last : (es : List (Option DE)) → PlainAll es → ∀ ps, DE.marshalAll es = .ok ps →
    ∀ p ∈ ps, PlainData p
  | [], _, ps, hm => by rw [DE.marshalAll] at hm; cases hm; simp
  | none :: r, h, ps, hm => by
    rw [PlainAll] at h
    rw [DE.marshalAll, DE.marshalOpt] at hm
    cases ha : DE.marshalAll r with
    | err => rw [ha] at hm; simp at hm
    | panic => rw [ha] at hm; simp at hm
    | ok qs =>
      rw [ha] at hm
      simp at hm
      rw [← hm]
      intro p hp
      simp only [List.mem_cons] at hp
      rcases hp with rfl | hp
      · simp [PlainData]
      · exact plains_last r h.2 qs ha p hp
  | some e :: r, h, ps, hm => by
    rw [PlainAll, PlainOpt] at h
    rw [DE.marshalAll, DE.marshalOpt] at hm
    cases he : e.marshal with
    | err => rw [he] at hm; simp at hm
    | panic => rw [he] at hm; simp at hm
    | ok b =>
      rw [he] at hm
      simp only [Outcome.bind] at hm
      cases ha : DE.marshalAll r with
      | err => rw [ha] at hm; simp at hm
      | panic => rw [ha] at hm; simp at hm
      | ok qs =>
        rw [ha] at hm
        simp at hm
        rw [← hm]
        intro p hp
        simp only [List.mem_cons] at hp
        rcases hp with rfl | hp
        · exact plain_last e h.1 _ he
        · exact plains_last r h.2 qs ha p hp
end

mutual
/-- Plain elements are sound. -/
theorem plain_sound : (e : DE) → Plain e → Sound e
  | .group n es, h => by
    rw [Plain] at h; rw [Sound]
    exact ⟨plains_sound es h, notCut_of_last (Or.inl rfl) (plains_last es h)⟩
  | .array a b es, h => by
    rw [Plain] at h; rw [Sound]
    exact ⟨plains_sound es h, notCut_of_last (Or.inl rfl) (plains_last es h)⟩
  | .alnum v m, h => by rw [Plain] at h; rw [Sound]; exact ⟨h.1, h.2.1⟩
  | .text v m, h => by rw [Plain] at h; rw [Sound]; exact ⟨h.1, h.2.1⟩
  | .code v m s, h => by rw [Plain] at h; rw [Sound]; exact ⟨h.1, h.2.1⟩
  | .identification v m, h => by rw [Plain] at h; rw [Sound]; exact ⟨h.1, h.2.1⟩
  | .currency v m, h => by rw [Plain] at h; rw [Sound]; exact ⟨h.1, h.2.1⟩
  | .float v m, h => by rw [Plain] at h; rw [Sound]; exact h
  | .value v m, h => by rw [Plain] at h; rw [Sound]; exact h
  | .binary v m, _ => by rw [Sound]; trivial
  | .dtaus v m, _ => by rw [Sound]; trivial
  | .digit v m, _ => by rw [Sound]; trivial
  | .number v m, _ => by rw [Sound]; trivial
  | .boolean v, _ => by rw [Sound]; trivial
  | .date t, _ => by rw [Sound]; trivial
  | .virtualDate v m, _ => by rw [Sound]; trivial
  | .time t, _ => by rw [Sound]; trivial
  | .countryCode v m, _ => by rw [Sound]; trivial

/-- The same for lists of elements. -/
theorem plains_sound : (es : List (Option DE)) → PlainAll es → SoundAll es
  | [], _ => by rw [SoundAll]; trivial
  | none :: r, h => by
    rw [PlainAll] at h; rw [SoundAll, SoundOpt]
    exact ⟨trivial, plains_sound r h.2⟩
  | some e :: r, h => by
    rw [PlainAll, PlainOpt] at h; rw [SoundAll, SoundOpt]
    exact ⟨plain_sound e h.1, plains_sound r h.2⟩
end

end Verif.Segment

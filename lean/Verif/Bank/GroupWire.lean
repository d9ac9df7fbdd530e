import Verif.Bank.CarryLemmas

/-
Reading back groups given by the bytes of their parts.
-/

namespace Verif.Bank

open GoLib Charset Element Element.Spec Segment Segment.Spec Message Verif.Token.Spec

/-- A part of a group: a value or nothing, without `+` and `'`. -/
def CleanPart (p : Bytes) : Prop := Part p ∧ (43 : Byte) ∉ p ∧ (39 : Byte) ∉ p

theorem clean_text {s : Str} (h : Sendable s) (hs : NoSep s) : CleanPart (enc (escape s)) :=
  ⟨part_of_sendable h, (noSep_wire h.1).2 hs⟩

theorem itoa_no {n : Int} {c : Byte} (hc : ¬ Digit c) (h45 : c ≠ 45) : c ∉ itoa n := by
  intro hm
  unfold itoa at hm
  split at hm
  · simp only [List.mem_cons] at hm
    rcases hm with h | h
    · exact h45 h
    · exact hc ((natDec_digits _).2 _ h)
  · exact hc ((natDec_digits _).2 _ hm)

theorem clean_number (n : Int) : CleanPart (itoa n) :=
  ⟨.inr (itoa_value n), itoa_no (by unfold Digit; decide) (by decide), itoa_no (by unfold Digit; decide) (by decide)⟩

theorem clean_bool (v : Bool) : CleanPart (marshalBool v) := by
  have h : enc (escape (if v then c!"J" else c!"N")) = marshalBool v := by cases v <;> rfl
  rw [← h]
  refine clean_text (sendable_of ?_ ?_) ?_
  · cases v <;> decide
  · cases v <;> decide
  · unfold NoSep; cases v <;> decide

theorem clean_zeroPad (w : Nat) (n : Int) : CleanPart (zeroPad w n) := by
  refine ⟨.inr (zeroPad_value w n), ?_⟩
  have key : ∀ c : Byte, ¬ Digit c → c ≠ 45 → c ∉ zeroPad w n := by
    intro c hc h45 hm
    unfold zeroPad at hm
    have hz : ∀ k, c ∉ List.replicate k (48 : Byte) := by
      intro k hk
      rw [List.eq_of_mem_replicate hk] at hc
      exact hc (by unfold Digit; decide)
    have hd : ∀ k, c ∉ natDec k := fun k hk => hc ((natDec_digits _).2 _ hk)
    split at hm
    · simp only [List.mem_cons, List.mem_append] at hm
      rcases hm with h | h | h
      · exact h45 h
      · exact hz _ h
      · exact hd _ h
    · simp only [List.mem_append] at hm
      rcases hm with h | h
      · exact hz _ h
      · exact hd _ h
  exact ⟨key 43 (by unfold Digit; decide) (by decide), key 39 (by unfold Digit; decide) (by decide)⟩

theorem mem_join {c x : Byte} {ps : List Bytes} (h : x ∈ join c ps) : x = c ∨ ∃ q ∈ ps, x ∈ q := by
  induction ps with
  | nil => simp [join] at h
  | cons p ps ih =>
    cases ps with
    | nil => exact .inr ⟨p, by simp, by simpa [join] using h⟩
    | cons q ps =>
      rw [join_cons _ _ (by simp)] at h
      simp only [List.mem_append, List.mem_cons] at h
      rcases h with h | rfl | h
      · exact .inr ⟨p, by simp, h⟩
      · exact .inl rfl
      · rcases ih h with h | ⟨r, hr, h⟩
        · exact .inl h
        · exact .inr ⟨r, by simp [List.mem_cons.1 hr], h⟩

/-- The parts of a group are extracted as they are. -/
theorem extract_join {ps : List Bytes} (hne : ps ≠ []) (h : ∀ q ∈ ps, CleanPart q) (hl : (join 58 ps).length < 2 ^ 62) :
    Element.extractElements (join 58 ps) = .ok ps := by
  obtain ⟨init, p, rfl⟩ : ∃ init p, ps = init ++ [p] := by
    rcases List.eq_nil_or_concat ps with rfl | ⟨i, x, rfl⟩
    · exact absurd rfl hne
    · exact ⟨i, x, by simp⟩
  have hj : join 58 (init ++ [p]) = pre 58 init ++ p := join_snoc _ _ _
  have hno : ∀ x : Byte, (x = 43 ∨ x = 39) → x ∉ join 58 (init ++ [p]) := by
    intro x hx hm
    rcases mem_join hm with rfl | ⟨q, hq, hm⟩
    · rcases hx with h | h <;> exact absurd h (by decide)
    · rcases hx with rfl | rfl
      · exact (h q hq).2.1 hm
      · exact (h q hq).2.2 hm
  have he := extract_parts (init := init) (p := p) (fun q hq => (h q (by simp [hq])).1) (h p (by simp)).1
    (by rw [← hj]; omega)
  rw [hj] at hno ⊢
  rw [he, if_neg]
  rintro (hm | hm)
  · exact hno _ (.inl rfl) hm
  · exact hno _ (.inr rfl) hm

/-- A group is a field. -/
theorem field_group {ps : List Bytes} (h : ∀ q ∈ ps, CleanPart q) : Field (join 58 ps) := by
  rcases List.eq_nil_or_concat ps with rfl | ⟨i, x, rfl⟩
  · exact .nil
  · rw [List.concat_eq_append] at h ⊢
    rw [join_snoc]
    exact field_pre (fun q hq => field_of_part (h q (by simp [hq])).1) (field_of_part (h x (by simp)).1)

theorem join_length_le (ps qs : List Bytes) : (join 58 qs).length ≤ (join 58 (ps ++ qs)).length := by
  induction ps with
  | nil => simp
  | cons p ps ih =>
    by_cases h : ps ++ qs = []
    · simp only [List.append_eq_nil_iff] at h
      simp [h.1, h.2, join]
    · rw [List.cons_append, join_cons _ _ h]
      simp only [List.length_append, List.length_cons]
      omega

theorem join_length_left (ps qs : List Bytes) : (join 58 ps).length ≤ (join 58 (ps ++ qs)).length := by
  induction ps with
  | nil => simp [join]
  | cons p ps ih =>
    by_cases h : ps = []
    · subst h
      by_cases hq : qs = []
      · subst hq; simp
      · rw [List.cons_append, List.nil_append, join_cons _ _ hq]
        simp [join]
    · rw [List.cons_append, join_cons _ _ h, join_cons _ _ (by simp [h])]
      simp only [List.length_append, List.length_cons]
      omega

theorem numbers_read {bound : Int → Bool} {ns : List Int} (h : ∀ n ∈ ns, IsInt n ∧ bound n = true) :
    unmarshalNumbers bound (ns.map itoa) = .ok ns := by
  induction ns with
  | nil => rfl
  | cons n ns ih =>
    obtain ⟨h1, h2⟩ := h n (by simp)
    simp only [List.map_cons, unmarshalNumbers, atoi_itoa n h1.1 h1.2, Outcome.ofOption, Outcome.bind, h2, if_true,
      ih fun m hm => h m (by simp [hm]), Outcome.map']

theorem check_number {n : Int} (h : IsInt n) : check unmarshalNumber (itoa n) = .ok () := by
  show (unmarshalNumber (marshalNumber n)).map' _ = _
  rw [C09_number n h]
  rfl

/-- A country code and a bank ID. -/
theorem bank_read {n : Int} {id : Str} (hn : IsInt n) (h : Sendable id) (hs : NoSep id)
    (hl : (join 58 [zeroPad 3 n, enc (escape id)]).length < 2 ^ 62) :
    unmarshalBankIdentification (join 58 [zeroPad 3 n, enc (escape id)]) = .ok (some n, escape id) := by
  unfold unmarshalBankIdentification
  rw [extract_join (by simp) (by simp [clean_zeroPad, clean_text h hs]) hl]
  simp [Outcome.bind, bankParts, unmarshalCountry, atoi_zeroPad 3 n hn, Outcome.map', toUTF8_enc (escape_latin1.2 h.1)]

end Verif.Bank

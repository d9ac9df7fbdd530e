import Verif.Bank.BareLemmas

/-
The decoders do not panic on the segments the program itself writes.
-/

namespace Verif.Bank

open GoLib Element Segment Message Token

/-- A part, field or element without unescaped `@`. -/
structure Calm (f : Bytes) : Prop where
  field : Segment.Spec.Field f
  size : f.length < 2 ^ 63
  text : NoBare (· == 64) false f

/-- The parts of a calm field. -/
theorem Calm.parts {f : Bytes} (h : Calm f) : Element.extractElements f = .err ∨ ∃ ps, Element.extractElements f = .ok ps ∧
    (∀ q ∈ ps, Calm q) ∧ (cells 58 false f [] = ps ∨ cells 58 false f [] = ps ++ [[]]) ∧
    (∀ a b r, ps = a :: b :: r → Calm (a ++ 58 :: b)) := by
  obtain ⟨h1, h2, h3⟩ := h
  obtain ⟨init, p, rfl, h4, h5⟩ := field_parts h1
  have hp : ∀ {q : Bytes}, Part q → Segment.Spec.Field q := fun h => field_of_part h
  have ev : ∀ {q : Bytes}, Part q → NoBare (· == 64) false q → Even (fun c => c == 58) q := by
    intro q hq hn
    rcases hq with rfl | hq
    · exact .nil
    · exact noBare_escaped (even_value hq hn) (by intro c hc; simp only [beq_iff_eq] at hc; subst hc; simp [Token.Spec.Delim])
  have key : ∀ {init : List Bytes} {p : Bytes}, (∀ q ∈ init, Part q) → Part p → NoBare (· == 64) false (pre 58 init ++ p) →
      cells 58 false (pre 58 init ++ p) [] = init ++ [p] ∧ (∀ q ∈ init ++ [p], NoBare (· == 64) false q) := by
    intro init p hi hq hn
    induction init with
    | nil =>
      have hn : NoBare (· == 64) false p := by simpa [pre] using hn
      exact ⟨by simpa [pre] using cells_last (ev hq hn).1 [], by simpa using hn⟩
    | cons a init ih =>
      have e : pre 58 (a :: init) ++ p = a ++ 58 :: (pre 58 init ++ p) := by simp [pre_cons]
      rw [e] at hn ⊢
      have h1 := (noBare_append _ _ _).1 hn
      have h2 := ev (hi a (by simp)) h1.1
      rw [h2.2] at h1
      obtain ⟨i1, i2⟩ := ih (fun f hf => hi f (by simp [hf])) h1.2.2
      rw [cells_even h2, i1]
      refine ⟨rfl, fun f hf => ?_⟩
      rcases List.mem_cons.1 hf with rfl | hf
      · exact h1.1
      · exact i2 f hf
  obtain ⟨k1, k2⟩ := key h4 h5 h3
  have calm : ∀ q ∈ init ++ [p], Calm q := by
    intro q hq
    refine ⟨?_, ?_, k2 q hq⟩
    · rcases List.mem_append.1 hq with hq | hq
      · exact hp (h4 q hq)
      · simp only [List.mem_singleton] at hq; exact hp (hq ▸ h5)
    · have : q.length ≤ (pre 58 init ++ p).length := by
        rcases List.mem_append.1 hq with hq | hq
        · obtain ⟨a, b, rfl⟩ := List.append_of_mem hq
          simp [pre, List.flatMap_append, List.flatMap_cons]
          omega
        · simp only [List.mem_singleton] at hq; subst hq; simp
      omega
  have two : ∀ a b r, init ++ [p] = a :: b :: r → Calm (a ++ 58 :: b) := by
    intro a b r he
    have ca := calm a (by rw [he]; simp)
    have cb := calm b (by rw [he]; simp)
    refine ⟨?_, ?_, ca.text.sep cb.text rfl (by decide)⟩
    · have : Part a := by
        cases init with
        | nil => simp at he
        | cons x init => simp only [List.cons_append, List.cons.injEq] at he; exact he.1 ▸ h4 x (by simp)
      rcases this with rfl | hv
      · exact .none_more cb.field
      · exact .more hv cb.field
    · have e : (pre 58 init ++ p).length + 1 = (pre 58 (init ++ [p])).length := by simp [pre]; omega
      rw [he] at e
      rw [pre_cons, pre_cons] at e
      have e2 : (a ++ 58 :: b).length + 1 ≤ (pre 58 init ++ p).length + 1 := by
        rw [e]; simp only [List.length_append, List.length_cons]; omega
      omega
  rw [extract_parts h4 h5 h2]
  split
  · split
    · rename_i hpn
      subst hpn
      refine Or.inr ⟨init, rfl, fun q hq => calm q (by simp [hq]), Or.inr k1, fun a b r he => two a b (r ++ [[]]) (by simp [he])⟩
    · exact Or.inl rfl
  · exact Or.inr ⟨_, rfl, calm, Or.inl k1, two⟩

/-- A reader that does not panic on calm input. -/
def Safe {α : Type} (f : Bytes → Outcome α) : Prop := ∀ b, Calm b → f b ≠ .panic

theorem bind_safe {α β : Type} {o : Outcome α} {f : α → Outcome β} (h : o ≠ .panic) (hf : ∀ a, o = .ok a → f a ≠ .panic) :
    o.bind f ≠ .panic := by
  cases o with
  | ok a => exact hf a rfl
  | err => simp
  | panic => exact absurd rfl h

theorem map_safe {α β : Type} {o : Outcome α} {f : α → β} (h : o ≠ .panic) : o.map' f ≠ .panic := by
  cases o <;> simp_all

theorem field_safe {α : Type} {es : List Bytes} (h : ∀ q ∈ es, Calm q) {i : Nat} {f : Bytes → Outcome α} (hf : Safe f) :
    Message.field es i f ≠ .panic := by
  unfold Message.field
  cases hi : es[i]? with
  | none => simp
  | some b =>
    simp only
    split
    · simp
    · exact map_safe (hf b (h b (List.mem_of_getElem? hi)))

theorem checkFields_safe {es : List Bytes} (h : ∀ q ∈ es, Calm q) {fs : List (Nat × (Bytes → Outcome Unit))}
    (hf : ∀ x ∈ fs, Safe x.2) : checkFields es fs ≠ .panic := by
  induction fs with
  | nil => simp [checkFields]
  | cons x fs ih =>
    rw [checkFields]
    exact bind_safe (field_safe h (hf x (by simp))) fun _ _ => ih fun y hy => hf y (by simp [hy])

theorem safe_check {α : Type} {f : Bytes → Outcome α} (h : Safe f) : Safe (check f) := fun b hb => map_safe (h b hb)

theorem safe_anyText : Safe anyText := fun _ _ => by simp [anyText]

theorem safe_number : Safe unmarshalNumber := fun b _ => unmarshalNumber_no_panic b

theorem safe_ofOption {α : Type} (f : Bytes → Option α) : Safe (fun b => Outcome.ofOption (f b)) := fun b _ => by
  cases h : f b <;> simp [h]

theorem safe_date : Safe unmarshalDate := safe_ofOption _

theorem safe_time : Safe unmarshalTime := safe_ofOption _

theorem safe_binary : Safe unmarshalBinary := by
  intro b hb
  unfold unmarshalBinary
  cases b with
  | nil => simp
  | cons c r =>
    have : c ≠ 64 := by have := hb.text.1; simpa using this
    simp [this]

theorem safe_parts {α : Type} {f : List Bytes → Outcome α} (h : ∀ ps, (∀ q ∈ ps, Calm q) → (∀ a b r, ps = a :: b :: r → Calm (a ++ 58 :: b)) →
    f ps ≠ .panic) : Safe fun b => (Element.extractElements b).bind f := by
  intro b hb
  rcases hb.parts with he | ⟨ps, he, hq, _, h2⟩
  · simp [he]
  · simp only [he, Outcome.bind]; exact h ps hq h2

theorem safe_group {n : Nat} {fs : List (Nat × (Bytes → Outcome Unit))} (hf : ∀ x ∈ fs, Safe x.2) : Safe (checkGroup n fs) :=
  safe_parts fun ps hq _ => by
    split
    · simp
    · exact checkFields_safe hq hf

theorem safe_bank : Safe unmarshalBankIdentification :=
  safe_parts fun ps hq _ => by
    unfold bankParts
    split
    · simp [unmarshalCountry]
    · simp

theorem safe_profile (old : Option (Str × Int)) : Safe (unmarshalSecurityProfile old) :=
  safe_parts fun ps hq _ => by
    split
    · exact map_safe (unmarshalNumber_no_panic _)
    · simp

theorem safe_securityId : Safe checkSecurityId := safe_group (by simp [safe_anyText, safe_check safe_binary])

theorem safe_securityDate : Safe checkSecurityDate :=
  safe_group (by simp [safe_anyText, safe_check safe_date, safe_check safe_time])

theorem safe_hash : Safe checkHashAlgorithm := safe_group (by simp [safe_anyText, safe_check safe_binary])

theorem safe_signatureAlgorithm : Safe checkSignatureAlgorithm := safe_group (by simp [safe_anyText])

theorem safe_keyName : Safe checkKeyName :=
  safe_parts fun ps hq h2 => by
    split
    · simp
    · rename_i hl
      refine bind_safe ?_ fun _ _ => checkFields_safe hq (by simp [safe_anyText, safe_check safe_number])
      rcases ps with _ | ⟨a, _ | ⟨b, r⟩⟩
      · simp at hl
      · simp at hl
      · exact field_safe hq fun _ _ => safe_check safe_bank _ (h2 a b r rfl)

/-- A segment whose elements the generated code reads without panicking. -/
theorem generated_safe {α : Type} {t : Bytes} (h : Message.Spec.SegmentText (t ++ [39])) (hl : (t ++ [39]).length < 2 ^ 63)
    (hn : NoBare (· == 64) false t) {k : Header → List Bytes → Outcome α}
    (hk : ∀ es hd, (∀ f ∈ es, Calm f) → (cells 43 false t [] = es ∨ cells 43 false t [] = es ++ [[]]) → k hd es ≠ .panic) :
    generated (t ++ [39]) k ≠ .panic := by
  obtain ⟨es, h1, h2, h3⟩ := segment_cells h hl hn
  unfold generated
  rw [h1]
  simp only [Outcome.bind]
  cases es with
  | nil => simp
  | cons hb es =>
    obtain ⟨f1, f2, f3⟩ := h3 hb (by simp)
    exact bind_safe (unmarshalHeader_no_panic f1 f2) fun hd _ =>
      hk _ hd (fun f hf => let ⟨a, b, c⟩ := h3 f hf; ⟨a, b, c⟩) h2

theorem lastField_short {α : Type} {es : List Bytes} {i : Nat} (h : es.length ≤ i) (f : Bytes → Outcome α) :
    lastField es i f = .ok none := by
  unfold lastField
  rw [List.getElem?_eq_none h]

theorem lastField_safe {α : Type} (es : List Bytes) (i : Nat) {f : Bytes → Outcome α} (h : ∀ b, f b ≠ .panic) :
    lastField es i f ≠ .panic := by
  unfold lastField
  split
  · simp
  · split
    · simp
    · exact map_safe (h _)

/-- The name of a segment is read as written. -/
theorem header_id {h : Header} {y : Bytes} (hid : Element.Spec.Latin1 h.id) (hy : y = [] ∨ ∃ z, y = 43 :: z)
    (ht : Message.Spec.SegmentText (headerBytes h ++ y ++ [39])) (hl : (headerBytes h ++ y ++ [39]).length < 2 ^ 63)
    (hn : NoBare (· == 64) false (headerBytes h ++ y)) :
    extractSegmentHeader (headerBytes h ++ y ++ [39]) ≠ .panic ∧
      ∀ g, extractSegmentHeader (headerBytes h ++ y ++ [39]) = .ok g → g.id = h.id ∧ unmarshalHeader (headerBytes h) = .ok g := by
  obtain ⟨es, h1, h2, h3⟩ := segment_cells ht hl hn
  have he : Even (· == 43) (headerBytes h) :=
    (even_headerBytes hid).mono (by intro c hc; simp only [beq_iff_eq] at hc; subst hc; rfl)
  obtain ⟨r, hr⟩ : ∃ r, cells 43 false (headerBytes h ++ y) [] = headerBytes h :: r := by
    rcases hy with rfl | ⟨z, rfl⟩
    · exact ⟨[], by simpa using cells_last he.1 []⟩
    · exact ⟨_, cells_even he z⟩
  have hes : ∃ r, es = headerBytes h :: r := by
    rw [hr] at h2
    rcases h2 with h2 | h2
    · exact ⟨_, h2.symm⟩
    · cases es with
      | nil => simp at h2; exact absurd h2.1 (headerBytes_ne_nil h)
      | cons a es => simp only [List.cons_append, List.cons.injEq] at h2; exact ⟨es, by rw [h2.1]⟩
  obtain ⟨r', rfl⟩ := hes
  obtain ⟨f1, f2, f3⟩ := h3 (headerBytes h) (by simp)
  unfold extractSegmentHeader
  rw [h1]
  simp only [Outcome.bind]
  refine ⟨unmarshalHeader_no_panic f1 f2, fun g hg => ⟨?_, hg⟩⟩
  unfold unmarshalHeader at hg
  rcases Calm.parts ⟨f1, f2, f3⟩ with he' | ⟨ps, he', _, hc, _⟩
  · rw [he'] at hg; simp at hg
  · rw [he'] at hg
    simp only [Outcome.bind] at hg
    have ev : Even (· == 58) (enc (escape h.id)) :=
      (noBare_enc hid).mono (by intro c hc; simp only [beq_iff_eq] at hc; subst hc; rfl)
    have e : ∃ z, headerBytes h = enc (escape h.id) ++ 58 :: z := by
      unfold headerBytes
      exact ⟨_, by simp; rfl⟩
    obtain ⟨z, hz⟩ := e
    rw [hz, cells_even ev] at hc
    split at hg
    · rename_i i p v rest _ _
      have hi : i = enc (escape h.id) := by
        rcases hc with hc | hc
        · exact (List.cons.inj hc).1.symm
        · simp only [List.cons_append, List.cons.injEq] at hc; exact hc.1.symm
      obtain ⟨pos, _, hg⟩ := Dialog.bind_ok hg
      obtain ⟨ver, _, hg⟩ := Dialog.bind_ok hg
      obtain ⟨rf, _, hg⟩ := Dialog.bind_ok hg
      simp only [Outcome.ok.injEq] at hg
      rw [← hg, hi]
      exact unmarshalText_enc hid
    · cases hg

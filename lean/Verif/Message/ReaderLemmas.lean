import Verif.Message.Reader
import Verif.Message.Props
import Verif.Element.PartsLemmas

/-
Lemmas about reading the bank's messages.
-/

namespace Verif.Message

open GoLib Element Segment Domain Token Verif.Token.Spec Verif.Message.Spec Verif.Element.Spec

/-- The elements of a segment: everything between the separators, without the last
one if that is empty. -/
theorem segmentText_fields_inv {s : Bytes} (h : SegmentText s) :
    ∃ init p, s = pre 43 init ++ p ++ [39] ∧ (∀ f ∈ init, Spec.Field f) ∧ Spec.Field p := by
  obtain ⟨u, v, rfl, hu, hv⟩ := h
  have key : ∀ {u : Bytes}, Unfinished u → ∀ {p : Bytes}, Spec.Field p →
      ∃ init q, u ++ p = pre 43 init ++ q ∧ (∀ f ∈ init, Spec.Field f) ∧ Spec.Field q := by
    intro u hu
    induction hu with
    | nil => intro p hp; exact ⟨[], p, rfl, by simp, hp⟩
    | @sep d u hd _ ih =>
      intro p hp
      obtain ⟨init, q, h1, h2, h3⟩ := ih hp
      rcases hd with rfl | rfl
      · refine ⟨[] :: init, q, by simp [pre_cons, h1], ?_, h3⟩
        intro f hf
        simp only [List.mem_cons] at hf
        rcases hf with rfl | hf
        · exact .nil
        · exact h2 f hf
      · cases init with
        | nil => exact ⟨[], 58 :: q, by simpa [pre] using h1, by simp, .none_more h3⟩
        | cons i init =>
          refine ⟨(58 :: i) :: init, q, by simp [pre_cons] at h1 ⊢; exact h1, ?_, h3⟩
          intro f hf
          simp only [List.mem_cons] at hf
          rcases hf with rfl | hf
          · exact .none_more (h2 i (by simp))
          · exact h2 f (by simp [hf])
    | @value v d u hv hd _ ih =>
      intro p hp
      obtain ⟨init, q, h1, h2, h3⟩ := ih hp
      rcases hd with rfl | rfl
      · refine ⟨v :: init, q, by simp [pre_cons, h1], ?_, h3⟩
        intro f hf
        simp only [List.mem_cons] at hf
        rcases hf with rfl | hf
        · exact .one hv
        · exact h2 f hf
      · cases init with
        | nil => exact ⟨[], v ++ 58 :: q, by simpa [pre] using h1, by simp, .more hv h3⟩
        | cons i init =>
          refine ⟨(v ++ 58 :: i) :: init, q, by simp [pre_cons] at h1 ⊢; exact h1, ?_, h3⟩
          intro f hf
          simp only [List.mem_cons] at hf
          rcases hf with rfl | hf
          · exact .more hv (h2 i (by simp))
          · exact h2 f (by simp [hf])
  obtain ⟨init, q, h1, h2, h3⟩ := key hu (field_of_part hv)
  exact ⟨init, q, by rw [h1], h2, h3⟩

/-- Extraction of the elements of a segment that ends in an empty element. -/
theorem extract_segment_nil {init : List Bytes} (hf : ∀ f ∈ init, Spec.Field f)
    (hl : (pre 43 init).length < 2 ^ 63) : Segment.extractElements (pre 43 init ++ [39]) = .ok init := by
  obtain ⟨ts, h1, _, h3⟩ := clean_fields hf (pos := 0) (by omega)
  have hc := h1.append (clean_delim (d := 39) (pos := 0 + (pre 43 init).length) (Or.inr (Or.inl rfl)))
  unfold Segment.extractElements
  rw [lex_eq_scan, hc.scan_eq_done]
  simp only [List.append_assoc, List.singleton_append]
  rw [h3]
  simp [Segment.extractLoop, sepTyp]

/-- Elements of every segment text; there is none exactly in the lone terminator. -/
theorem segmentText_elements {s : Bytes} (h : SegmentText s) (hl : s.length < 2 ^ 63) :
    ∃ es, Segment.extractElements s = .ok es ∧ (∀ f ∈ es, Spec.Field f ∧ f.length < 2 ^ 63) ∧ (es = [] ↔ s = [39]) := by
  obtain ⟨init, p, rfl, h1, h2⟩ := segmentText_fields_inv h
  simp only [List.length_append] at hl
  have hle : ∀ f ∈ init, f.length ≤ (pre 43 init).length := by
    intro f hf
    unfold pre
    obtain ⟨a, b, rfl⟩ := List.append_of_mem hf
    simp [List.flatMap_append, List.flatMap_cons]
    omega
  by_cases hp : p = []
  · subst hp
    refine ⟨init, ?_, ?_, ?_⟩
    · rw [List.append_nil]; exact extract_segment_nil h1 (by omega)
    · intro f hf
      exact ⟨h1 f hf, by have := hle f hf; omega⟩
    · constructor
      · rintro rfl; simp [pre]
      · intro he
        cases init with
        | nil => rfl
        | cons a init => exact absurd (congrArg List.length he) (by simp [pre_cons]; omega)
  · refine ⟨init ++ [p], extract_segment h1 h2 hp (by simp; omega), ?_, ?_⟩
    · intro f hf
      simp only [List.mem_append, List.mem_singleton] at hf
      rcases hf with hf | rfl
      · exact ⟨h1 f hf, by have := hle f hf; omega⟩
      · exact ⟨h2, by omega⟩
    · constructor
      · intro he; simp at he
      · intro he
        have := congrArg List.length he
        cases p with
        | nil => exact absurd rfl hp
        | cons a p => simp at this; omega

theorem unmarshalNumber_no_panic (b : Bytes) : unmarshalNumber b ≠ .panic := by
  unfold unmarshalNumber
  cases atoi b <;> simp

theorem unmarshalHeader_no_panic {f : Bytes} (h : Spec.Field f) (hl : f.length < 2 ^ 63) :
    unmarshalHeader f ≠ .panic := by
  unfold unmarshalHeader
  have h1 := extract_field_no_panic h hl
  cases hx : Element.extractElements f with
  | err => simp
  | panic => exact absurd hx h1
  | ok es =>
    simp only [Outcome.bind]
    split
    · rename_i i p v rest
      have hp := unmarshalNumber_no_panic p
      have hv := unmarshalNumber_no_panic v
      cases hnp : unmarshalNumber p with
      | err => simp
      | panic => exact absurd hnp hp
      | ok a =>
        cases hnv : unmarshalNumber v with
        | err => simp
        | panic => exact absurd hnv hv
        | ok b =>
          have hr : unmarshalRef (i :: p :: v :: rest) ≠ .panic := by
            unfold unmarshalRef
            split
            · rename_i r _ _
              split
              · simp
              · have hr := unmarshalNumber_no_panic r
                cases hnr : unmarshalNumber r with
                | err => simp [Outcome.map']
                | panic => exact absurd hnr hr
                | ok c => simp [Outcome.map']
            · simp
          cases hnr : unmarshalRef (i :: p :: v :: rest) with
          | err => simp
          | panic => exact absurd hnr hr
          | ok c => simp
    · simp

theorem unmarshalAck_no_panic {f : Bytes} (h : Spec.Field f) (hl : f.length < 2 ^ 63) : unmarshalAck f ≠ .panic := by
  unfold unmarshalAck
  have h1 := extract_field_no_panic h hl
  cases hx : Element.extractElements f with
  | err => simp
  | panic => exact absurd hx h1
  | ok es =>
    simp only [Outcome.bind]
    split
    · rename_i c r t ps
      cases atoi c <;> simp
    · simp

theorem unmarshalAcks_no_panic {es : List Bytes} (h : ∀ f ∈ es, Spec.Field f ∧ f.length < 2 ^ 63) :
    unmarshalAcks es ≠ .panic := by
  induction es with
  | nil => simp [unmarshalAcks]
  | cons e es ih =>
    unfold unmarshalAcks
    have h1 := unmarshalAck_no_panic (h e (by simp)).1 (h e (by simp)).2
    have h2 := ih fun f hf => h f (by simp [hf])
    cases hx : unmarshalAck e with
    | err => simp
    | panic => exact absurd hx h1
    | ok a =>
      cases hy : unmarshalAcks es with
      | err => simp
      | panic => exact absurd hy h2
      | ok as => simp

theorem unmarshalAckSegment_no_panic {s : Bytes} (h : SegmentText s) (hl : s.length < 2 ^ 63) (t : AckType) :
    unmarshalAckSegment t s ≠ .panic := by
  obtain ⟨es, h1, h2, _⟩ := segmentText_elements h hl
  unfold unmarshalAckSegment
  rw [h1]
  simp only [Outcome.bind]
  cases es with
  | nil => simp
  | cons hb es =>
    have h3 := unmarshalHeader_no_panic (h2 hb (by simp)).1 (h2 hb (by simp)).2
    have h4 := unmarshalAcks_no_panic (es := es) fun f hf => h2 f (by simp [hf])
    simp only
    cases hx : unmarshalHeader hb with
    | err => simp
    | panic => exact absurd hx h3
    | ok a =>
      cases hy : unmarshalAcks es with
      | err => simp
      | panic => exact absurd hy h4
      | ok as => simp

theorem unmarshalAcks_ok {es : List Bytes} {as : List AckEntry} :
    unmarshalAcks es = .ok as ↔ es.map unmarshalAck = as.map .ok := by
  induction es generalizing as with
  | nil => cases as <;> simp [unmarshalAcks]
  | cons e es ih =>
    unfold unmarshalAcks
    cases hx : unmarshalAck e with
    | err => cases as <;> simp [hx]
    | panic => cases as <;> simp [hx]
    | ok a =>
      cases as with
      | nil =>
        cases hy : unmarshalAcks es <;> simp
      | cons b as =>
        simp only [Outcome.bind, List.map_cons, List.cons.injEq, hx, ← ih]
        cases hy : unmarshalAcks es <;> simp [eq_comm]

end Verif.Message

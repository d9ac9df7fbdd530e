import Verif.Bank.CarryLemmas
import Verif.Bank.Views
import Verif.Bank.BalanceProps
import Verif.Message.ReaderProps

/-
C83: what the caller gets from the bank's HIPRO segments.
-/

namespace Verif.Bank

open GoLib Element Element.Spec Segment Segment.Spec Message Domain Verif.Token.Spec

/-- An entry of the status protocol as a bank writes it: the message and the segment it is about,
when the bank received it, and code, reference, text and parameters of the acknowledgement. -/
structure Protocol where
  about : Option ((Str × Int) × Option Int)
  date : Time.Civil
  time : Time.Civil
  code : Nat
  reference : Str
  text : Str
  params : List Str

/-- The fields of the segment. -/
def Protocol.fields (e : Protocol) : List Bytes :=
  [(e.about.map fun a => enc (escape a.1.1) ++ 58 :: itoa a.1.2).getD [], ((e.about.bind (·.2)).map itoa).getD [],
   marshalDate e.date, marshalTime e.time, writtenAck e.code e.reference e.text e.params]

/-- Numbers that are numbers, days and times that exist, texts that survive the wire (C61). -/
structure Protocol.Good (e : Protocol) : Prop where
  message : ∀ a, e.about = some a → Sendable a.1.1 ∧ NoSep a.1.1 ∧ IsInt a.1.2 ∧ ∀ n, a.2 = some n → IsInt n
  date : Day e.date
  time : TimeOfDay e.time.hour e.time.min e.time.sec
  code : e.code < 10000
  texts : ∀ s ∈ e.reference :: e.text :: e.params, Sendable s ∧ '+' ∉ s ∧ '\'' ∉ s
  size : (e.fields.flatMap (fun f => 43 :: f)).length ≤ 2 ^ 61

/-- 23:47:16.854775807, the time of day `time.Duration`'s largest value ends at. -/
def lastTime : Time.Civil := ⟨0, 1, 1, 23, 47, 16, 854775807⟩

theorem saturated {now t : Time.Civil} (hn : Time.Exists now) (hy : 294 ≤ now.year) (ht : TimeOfDay t.hour t.min t.sec) :
    Time.sub now ⟨0, 1, 1, t.hour, t.min, t.sec, 0⟩ = 2 ^ 63 - 1 := by
  obtain ⟨a1, a2, a3, a4, a5, a6, a7, a8⟩ := hn
  obtain ⟨b1, b2, b3⟩ := ht
  have e1 : Time.daysBeforeYear 0 = -366 := by decide
  have e2 : Time.daysBeforeYear 293 ≤ Time.daysBeforeYear now.year := by
    have := Time.daysBeforeYear_mono (a := 293) (b := now.year) (by omega)
    split at this <;> omega
  have e3 : Time.daysBeforeYear 294 ≤ Time.daysBeforeYear now.year := by
    rcases eq_or_lt_of_le hy with h | h
    · rw [h]
    · have := Time.daysBeforeYear_mono h
      split at this <;> omega
  have e4 : Time.daysBeforeYear 294 = 107016 := by decide
  have e5 : Time.daysBeforeMonth 0 1 = 0 := rfl
  unfold Time.sub Time.instant
  simp only [e1, e5]
  omega

theorem readReference {d : Str} {n : Int} (h : Sendable d) (hs : NoSep d) (hn : IsInt n)
    (hl : (enc (escape d) ++ 58 :: itoa n).length < 2 ^ 62) :
    unmarshalReference (enc (escape d) ++ 58 :: itoa n) = .ok (escape d, n) := by
  have he := extract_parts (init := [enc (escape d)]) (p := itoa n) (by simpa using part_of_sendable h)
    (Or.inr (itoa_value n)) (by
      have : pre 58 [enc (escape d)] ++ itoa n = enc (escape d) ++ 58 :: itoa n := by simp [pre]
      rw [this]; omega)
  have hp : pre 58 [enc (escape d)] ++ itoa n = enc (escape d) ++ 58 :: itoa n := by simp [pre]
  rw [hp] at he
  have hno := (noSep_wire h.1).2 hs
  have hi : ∀ b : Byte, b = 43 ∨ b = 39 → b ∉ itoa n := by
    intro b hb hm
    unfold itoa at hm
    have hd := (natDec_digits n.natAbs).2
    split at hm
    · rcases List.mem_cons.1 hm with rfl | hm
      · rcases hb with h | h <;> exact absurd h (by decide)
      · have := hd b hm
        rcases hb with rfl | rfl <;> simp [Digit] at this
    · have := hd b hm
      rcases hb with rfl | rfl <;> simp [Digit] at this
  rw [if_neg] at he
  · unfold unmarshalReference
    rw [he]
    simp only [List.singleton_append]
    rw [atoi_itoa n hn.1 hn.2]
    simp [Outcome.ofOption, Outcome.map', toUTF8_enc (escape_latin1.2 h.1)]
  · simp only [List.mem_append, List.mem_cons, not_or]
    exact ⟨⟨hno.1, by decide, hi 43 (Or.inl rfl)⟩, hno.2, by decide, hi 39 (Or.inr rfl)⟩

theorem seen_status {v : Int} (hv : v = 3 ∨ v = 4) (now : Time.Civil) (m : Bytes) :
    seen (clientViews now).status c!"HIPRO" v m =
      ((unmarshalStatus m).map' BankSeg.status).bind (clientViews now).status := by
  rcases hv with rfl | rfl <;> rfl

theorem writtenAck_field {code : Nat} {r t : Str} {ps : List Str} (hs : ∀ s ∈ r :: t :: ps, Sendable s) :
    Field (writtenAck code r t ps) ∧ writtenAck code r t ps ≠ [] := by
  obtain ⟨init, p, h1, h2⟩ := writtenAck_parts code r t ps
  have hparts : ∀ q ∈ init ++ [p], Field q := by
    rw [← h1]
    intro q hq
    simp only [List.mem_cons, List.mem_map] at hq
    rcases hq with rfl | ⟨s, hs', rfl⟩
    · exact .one (zeroPad_value 4 code)
    · exact field_of_part (part_of_sendable (hs s (by simpa using hs')))
  refine ⟨?_, ?_⟩
  · rw [h2]
    exact field_pre (fun q hq => hparts q (by simp [hq])) (hparts p (by simp))
  · unfold writtenAck
    rw [join_cons _ _ (by simp)]
    simp

theorem wire_protocol {e : Protocol} {p v r : Int} (hg : e.Good) (hp : IsInt p) (hr : IsInt r) (hv : v = 3 ∨ v = 4) :
    Wire ⟨c!"HIPRO", p, v, some r⟩ e.fields (segmentBytes c!"HIPRO" p v r e.fields) := by
  have hvi : IsInt v := by unfold IsInt; omega
  obtain ⟨hf1, hf2⟩ := writtenAck_field (code := e.code) fun s hs => (hg.texts s hs).1
  refine wire_of_fields (id := c!"HIPRO") (by decide) hp hvi hr (by decide) ?_ ?_ hg.size
  · intro f hf
    simp only [Protocol.fields, List.mem_cons, List.not_mem_nil, or_false] at hf
    rcases hf with rfl | rfl | rfl | rfl | rfl
    · cases ha : e.about with
      | none => exact .nil
      | some a =>
        exact field_join (field_of_part (part_of_sendable (hg.message a ha).1)) (.one (itoa_value _))
    · cases (e.about.bind (·.2)) with
      | none => exact .nil
      | some n => exact .one (itoa_value n)
    · exact .one (format8_value _)
    · exact .one (format6_value _)
    · exact hf1
  · simp [Protocol.fields, hf2]

/-- C83: an entry of the status protocol.  Code, references and texts arrive (texts with their
escape signs, as in C61).  The time of transmission does not: whatever the transmitted time and
whenever it is read, from the year 294 on, the result is the transmitted date plus 106751 days,
at 23:47:16.854775807.  An entry about a message without a segment panics. -/
theorem C83_status {e : Protocol} {p v r : Int} {now : Time.Civil} (hg : e.Good) (hp : IsInt p) (hr : IsInt r)
    (hv : v = 3 ∨ v = 4) (hn : Time.Exists now) (hy : 294 ≤ now.year) :
    ((∃ m, e.about = some (m, none)) ∧
      seen (clientViews now).status c!"HIPRO" v (segmentBytes c!"HIPRO" p v r e.fields) = .panic) ∨
    (∃ t x k d n, (e.about = none ∧ t = .message ∧ d = [] ∧ n = 0 ∧ k = 0 ∨
        ∃ d', e.about = some ((d', n), some k) ∧ t = .segment ∧ d = escape d') ∧
      OnDay e.date 106751 lastTime x ∧
      seen (clientViews now).status c!"HIPRO" v (segmentBytes c!"HIPRO" p v r e.fields) =
        .ok ⟨⟨t, e.code, escape e.reference, escape e.text, e.params.map escape, ⟨d, n⟩, k⟩, x⟩) := by
  obtain ⟨hf1, hf2⟩ := writtenAck_field (code := e.code) fun s hs => (hg.texts s hs).1
  have hw := wire_protocol hg hp hr hv
  obtain ⟨hb, h1, h2⟩ := generated_of_wire hw
  have hack : lastField (hb :: e.fields) 5 unmarshalAck =
      .ok (some ⟨e.code, escape e.reference, escape e.text, e.params.map escape⟩) :=
    lastField_at rfl hf2 (by
      show unmarshalAck (writtenAck e.code e.reference e.text e.params) = _
      exact C61_wire hg.code hg.texts (by have := h1 _ (show writtenAck e.code e.reference e.text e.params ∈ e.fields from by simp [Protocol.fields]); omega))
  have hd : field (hb :: e.fields) 3 unmarshalDate = .ok (some (midnight e.date)) :=
    field_at rfl (fun h => by
      have := (format8_spec hg.date.1 hg.date.2.1 hg.date.2.2).1
      rw [show Time.format8 e.date = [] from h] at this; simp at this)
      (C10_date_roundtrip e.date hg.date.1 hg.date.2.1 hg.date.2.2)
  have ht : field (hb :: e.fields) 4 unmarshalTime = .ok (some ⟨0, 1, 1, e.time.hour, e.time.min, e.time.sec, 0⟩) :=
    field_at rfl (fun h => by
      have := (format6_spec hg.time).1
      rw [show Time.format6 e.time = [] from h] at this; simp at this)
      (C10_time_roundtrip e.time hg.time)
  have hx : OnDay e.date 106751 lastTime (Time.add (midnight e.date) (2 ^ 63 - 1)) :=
    add_onDay (d := midnight e.date) (t := lastTime) hg.date.2.2 ⟨rfl, rfl, rfl, rfl⟩ ⟨by decide, by decide, by decide⟩ (by decide) (by decide)
  have hsat := saturated (now := now) hn hy hg.time
  rw [seen_status hv]
  unfold unmarshalStatus
  rw [h2]
  cases ha : e.about with
  | none =>
    right
    have f1 : field (hb :: e.fields) 1 unmarshalReference = .ok none :=
      (field_nil _ (Or.inr (by simp [Protocol.fields, ha]))).1
    have f2 : field (hb :: e.fields) 2 unmarshalNumber = .ok none :=
      (field_nil _ (Or.inr (by simp [Protocol.fields, ha]))).1
    refine ⟨.message, _, 0, [], 0, Or.inl ⟨rfl, rfl, rfl, rfl, rfl⟩, hx, ?_⟩
    rw [f1, f2, hd, ht, hack]
    show Outcome.ok (StatusAcknowledgement.mk _ (Time.add (midnight e.date) (Time.sub now _))) = _
    rw [hsat]
  | some a =>
    obtain ⟨⟨d, n⟩, s⟩ := a
    obtain ⟨g1, g2, g3, g4⟩ := hg.message _ ha
    have hmem : enc (escape d) ++ 58 :: itoa n ∈ e.fields := by simp [Protocol.fields, ha]
    have f1 : field (hb :: e.fields) 1 unmarshalReference = .ok (some (escape d, n)) :=
      field_at (p := enc (escape d) ++ 58 :: itoa n) (by simp [Protocol.fields, ha]) (by simp)
        (readReference g1 g2 g3 (h1 _ hmem))
    cases s with
    | none =>
      left
      refine ⟨⟨_, rfl⟩, ?_⟩
      have f2 : field (hb :: e.fields) 2 unmarshalNumber = .ok none :=
        (field_nil _ (Or.inr (by simp [Protocol.fields, ha]))).1
      rw [f1, f2, hd, ht, hack]
      rfl
    | some k =>
      right
      have f2 : field (hb :: e.fields) 2 unmarshalNumber = .ok (some k) :=
        field_at (p := itoa k) (by simp [Protocol.fields, ha]) (itoa_ne_nil k) (C09_number k (g4 k rfl))
      refine ⟨.segment, _, k, escape d, n, Or.inr ⟨d, rfl, rfl, rfl⟩, hx, ?_⟩
      rw [f1, f2, hd, ht, hack]
      show Outcome.ok (StatusAcknowledgement.mk _ (Time.add (midnight e.date) (Time.sub now _))) = _
      rw [hsat]

/-- C83: hence two entries of one day are reported with the same time, and no entry of a year up to
9999 with the right one. -/
theorem C83_late {d x : Time.Civil} (hd : ExistingDate d.year d.month d.day) (hx : OnDay d 106751 lastTime x) :
    d.year + 291 < x.year := by
  obtain ⟨h1, h2, _⟩ := hx
  obtain ⟨⟨a1, a2⟩, a3, a4⟩ := (existing_iff _ _ _).1 h1
  obtain ⟨⟨b1, b2⟩, b3, b4⟩ := (existing_iff _ _ _).1 hd
  have e1 := Time.days_eq x.year (d := x.day) a1 a2
  have e2 := Time.days_eq d.year (d := d.day) b1 b2
  have e3 := Time.daysBeforeMonth_mono x.year a1 (show x.month < 13 by omega)
  rw [Time.daysBeforeMonth_thirteen] at e3
  have e4 : (if Time.isLeap x.year = true then 366 else 365) ≤ 366 := by split <;> omega
  by_contra hlt
  have e5 : Time.daysBeforeYear x.year ≤ Time.daysBeforeYear (d.year + 291) := by
    rcases eq_or_lt_of_le (not_lt.1 hlt) with h | h
    · rw [h]
    · have := Time.daysBeforeYear_mono h
      split at this <;> omega
  have e6 : Time.daysBeforeYear (d.year + 291) ≤ Time.daysBeforeYear d.year + 106287 := by
    unfold Time.daysBeforeYear; omega
  omega

/-- A usual entry: received on 2 January 2024 at 8:15, reported for 12 April 2316. -/
example :
    (Protocol.mk (some ((c!"ABC", 2), some 3)) ⟨2024, 1, 2, 0, 0, 0, 0⟩ ⟨0, 1, 1, 8, 15, 0, 0⟩ 10 [] c!"Auftrag ok" []).Good ∧
    segmentBytes c!"HIPRO" 4 3 3
      (Protocol.mk (some ((c!"ABC", 2), some 3)) ⟨2024, 1, 2, 0, 0, 0, 0⟩ ⟨0, 1, 1, 8, 15, 0, 0⟩ 10 [] c!"Auftrag ok" []).fields =
      b!"HIPRO:4:3:3+ABC:2+3+20240102+081500+0010::Auftrag ok'" ∧
    seen (clientViews ⟨2024, 2, 1, 12, 0, 0, 0⟩).status c!"HIPRO" 3 b!"HIPRO:4:3:3+ABC:2+3+20240102+081500+0010::Auftrag ok'" =
      .ok ⟨⟨.segment, 10, [], c!"Auftrag ok", [], ⟨c!"ABC", 2⟩, 3⟩, ⟨2316, 4, 12, 23, 47, 16, 854775807⟩⟩ ∧
    seen (clientViews ⟨2024, 2, 1, 12, 0, 0, 0⟩).status c!"HIPRO" 3 b!"HIPRO:4:3:3+ABC:2++20240102+081500+0010::Auftrag ok'" =
      .panic := by
  refine ⟨⟨?_, ⟨by decide, by decide, by unfold ExistingDate LeapYear; decide⟩,
    ⟨by decide, by decide, by decide⟩, by decide, ?_, by decide⟩,
    by decide +kernel, by decide +kernel, by decide +kernel⟩
  · rintro a ha
    cases ha
    refine ⟨sendable_of (by decide) (by decide), by unfold NoSep; decide, by unfold IsInt; decide, ?_⟩
    rintro n hn; cases hn; unfold IsInt; decide
  · intro s hs
    simp only [List.mem_cons, List.not_mem_nil, or_false] at hs
    rcases hs with rfl | rfl
    · exact ⟨sendable_of (by decide) (by decide), by decide, by decide⟩
    · exact ⟨sendable_of (by decide) (by decide), by decide, by decide⟩

end Verif.Bank

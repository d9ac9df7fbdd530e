import Verif.Message.ExtractorLemmas

/-
C14 to C17: segments of a message.
-/

namespace Verif.Message

open GoLib Token Verif.Token.Spec Message.Spec Segment.Spec Element Element.Spec Segment

/-! ## C14: segmentation -/

/-- C14: what extraction returns, for every input.  It succeeds with `ss` exactly if
the input is the concatenation of the segment texts `ss`, followed by an unfinished
segment, which is dropped, and then by nothing or by a NUL byte and anything. -/
theorem C14_extract_iff {m : Bytes} (hl : m.length < 2 ^ 63) (ss : List Bytes) :
    (newExtractor m).extract.2 = .ok ss ↔
      ∃ u r, m = ss.flatten ++ u ++ r ∧ (∀ s ∈ ss, SegmentText s) ∧ Unfinished u ∧ (r = [] ∨ r.head? = some 0) := by
  constructor
  · intro h
    obtain ⟨ss', u, r, h1, h2, h3, h4 | h4 | h4⟩ := extract_cases m []
    · unfold newExtractor at h
      rw [h4.2] at h
      simp only [List.nil_append, Outcome.ok.injEq] at h
      subst h
      exact ⟨u, r, h1, h2, h3, h4.1⟩
    · unfold newExtractor at h
      rw [h4.2] at h
      simp at h
    · unfold newExtractor at h
      rw [h4.2] at h
      simp at h
  · rintro ⟨u, r, rfl, h2, h3, h4⟩
    unfold newExtractor
    rw [extract_of_text h2 h3 h4 (by simp only [List.length_append] at hl ⊢; omega)]
    simp

/-- C14: a message that is a concatenation of segment texts is cut into these. -/
theorem C14_segments {ss : List Bytes} (hs : ∀ s ∈ ss, SegmentText s) (hl : ss.flatten.length < 2 ^ 63) :
    (newExtractor ss.flatten).extract.2 = .ok ss :=
  (C14_extract_iff hl ss).2 ⟨[], [], by simp, hs, .nil, Or.inl rfl⟩

/-- C14: for every input, the segments found, even when extraction fails, are a
beginning of the input. -/
theorem C14_prefix (m : Bytes) :
    ∃ r, m = (newExtractor m).extract.1.segments.flatten ++ r ∧
      ∀ s ∈ (newExtractor m).extract.1.segments, SegmentText s := by
  obtain ⟨ss, u, r, h1, h2, _, h4 | h4 | h4⟩ := extract_cases m []
  all_goals
    refine ⟨u ++ r, ?_, ?_⟩
    · unfold newExtractor
      rw [h4.2]
      simpa using h1
    · unfold newExtractor
      rw [h4.2]
      simpa using h2

/-- Non-vacuity: quotes and the terminator inside text and inside binary data. -/
example : SegmentText b!"HIRMG:2:2+0010::Auftrag ?'x?' ok'" ∧ SegmentText b!"HNVSD:3:1+@4@a'b''" ∧
    (newExtractor b!"HIRMG:2:2+0010::Auftrag ?'x?' ok'HNVSD:3:1+@4@a'b''HNHBS:4:1+").extract.2 =
      .ok [b!"HIRMG:2:2+0010::Auftrag ?'x?' ok'", b!"HNVSD:3:1+@4@a'b''"] := by
  refine ⟨?_, ?_, by decide⟩
  · have := (C14_extract_iff (m := b!"HIRMG:2:2+0010::Auftrag ?'x?' ok'") (by simp)
      [b!"HIRMG:2:2+0010::Auftrag ?'x?' ok'"]).1 (by decide)
    obtain ⟨_, _, _, h, _⟩ := this
    exact h _ (List.mem_singleton_self _)
  · have := (C14_extract_iff (m := b!"HNVSD:3:1+@4@a'b''") (by simp)
      [b!"HNVSD:3:1+@4@a'b''"]).1 (by decide)
    obtain ⟨_, _, _, h, _⟩ := this
    exact h _ (List.mem_singleton_self _)

/-! ## C15: structure -/

theorem unfinished_append {u w : Bytes} (hu : Unfinished u) (hw : Unfinished w) : Unfinished (u ++ w) := by
  induction hu with
  | nil => exact hw
  | sep hd _ ih => exact .sep hd ih
  | value hv hd _ ih => rw [List.append_assoc, List.cons_append]; exact .value hv hd ih

theorem unfinished_field {f : Bytes} (hf : Spec.Field f) : ∃ u v, f = u ++ v ∧ Unfinished u ∧ (v = [] ∨ Value v) := by
  induction hf with
  | nil => exact ⟨[], [], rfl, .nil, Or.inl rfl⟩
  | one hv => exact ⟨[], _, rfl, .nil, Or.inr hv⟩
  | none_more _ ih =>
    obtain ⟨u, v, rfl, hu, hv⟩ := ih
    exact ⟨58 :: u, v, rfl, .sep (Or.inr rfl) hu, hv⟩
  | @more p f hp _ ih =>
    obtain ⟨u, v, rfl, hu, hv⟩ := ih
    exact ⟨p ++ 58 :: u, v, by simp, .value hp (Or.inr rfl) hu, hv⟩

theorem unfinished_field_plus {f : Bytes} (hf : Spec.Field f) : Unfinished (f ++ [43]) := by
  obtain ⟨u, v, rfl, hu, hv⟩ := unfinished_field hf
  rw [List.append_assoc]
  refine unfinished_append hu ?_
  rcases hv with rfl | hv
  · exact .sep (Or.inl rfl) .nil
  · exact .value hv (Or.inl rfl) .nil

theorem unfinished_pre {fs : List Bytes} (hf : ∀ f ∈ fs, Spec.Field f) : Unfinished (pre 43 fs) := by
  induction fs with
  | nil => exact .nil
  | cons f fs ih =>
    have : pre 43 (f :: fs) = f ++ [43] ++ pre 43 fs := by simp [pre]
    rw [this]
    exact unfinished_append (unfinished_field_plus (hf f (by simp))) (ih fun g hg => hf g (by simp [hg]))

theorem segmentText_fields {init : List Bytes} {p : Bytes} (hf : ∀ f ∈ init ++ [p], Spec.Field f) :
    SegmentText (pre 43 init ++ p ++ [39]) := by
  obtain ⟨u, v, rfl, hu, hv⟩ := unfinished_field (hf p (by simp))
  exact ⟨pre 43 init ++ u, v, by simp, unfinished_append (unfinished_pre fun f h => hf f (by simp [h])) hu, hv⟩

/-- A segment whose contents cannot disturb the wire format: the ID is harmless, no
text contains NUL or looks like a malformed number, and nothing that ends up at the
end of a group or of the segment ends in `:` or `+`. -/
structure Undisturbing (s : Seg) : Prop where
  id : HarmlessId s.header.id
  elements : ∀ e, some e ∈ s.elements → Sound e
  notCut : NotCut 43 s.elements

theorem segmentText_of_undisturbing {s : Seg} {b : Bytes} (h : Undisturbing s) (hm : s.marshal = .ok b) : SegmentText b := by
  obtain ⟨_, _, _, _, _, _, _, h4, _, rfl⟩ := segment_wire hm h.id h.elements h.notCut
  exact segmentText_fields h4

theorem undisturbing_of_plain {s : Seg} (hid : HarmlessId s.header.id) (hs : ∀ e, some e ∈ s.elements → Plain e) :
    Undisturbing s :=
  ⟨hid, fun e he => plain_sound e (hs e he), notCut_of_last (Or.inr rfl) (plains_last _ (plainAll_iff.2 hs))⟩

/-- C15: extracting the concatenation of any number of marshalled segments with
undisturbing contents returns these segments, and extracting the elements of each
returns its header and its elements without the trailing absent ones. -/
theorem C15_structure {segs : List Seg} {bs : List Bytes} (hu : ∀ s ∈ segs, Undisturbing s)
    (hm : segs.map Seg.marshal = bs.map .ok) (hl : bs.flatten.length < 2 ^ 63) :
    (newExtractor bs.flatten).extract.2 = .ok bs ∧
    ∀ (i : Nat) (s : Seg) (b : Bytes), segs[i]? = some s → bs[i]? = some b →
      ∃ hb ps out, s.header.marshal = .ok hb ∧ s.elements.map DE.marshalOpt = ps.map .ok ∧
        DropTrailing (hb :: ps) out ∧ Segment.extractElements b = .ok out := by
  have key : ∀ (i : Nat) (s : Seg) (b : Bytes), segs[i]? = some s → bs[i]? = some b → s.marshal = .ok b := by
    intro i s b hs hb
    have := congrArg (fun l => l[i]?) hm
    simpa [hs, hb] using this
  have hlen : segs.length = bs.length := by simpa using congrArg List.length hm
  constructor
  · refine C14_segments ?_ hl
    intro b hb
    obtain ⟨i, hi, rfl⟩ := List.mem_iff_getElem.1 hb
    exact segmentText_of_undisturbing (hu segs[i] (List.getElem_mem _)) (key i _ _ (by simp) (by simp [hi]))
  · intro i s b hs hb
    have hmem : s ∈ segs := List.mem_of_getElem? hs
    have hbl : b.length ≤ bs.flatten.length := by
      obtain ⟨l1, l2, h⟩ := List.append_of_mem (List.mem_of_getElem? hb)
      rw [h]; simp; omega
    exact C13_sound (key i s b hs hb) (hu s hmem).id (hu s hmem).elements (hu s hmem).notCut (by omega)

/-- C15: in particular if no text or binary value ends in `:` or `+`, contains NUL (in
a text) or looks like a malformed number. -/
theorem C15_plain {segs : List Seg} {bs : List Bytes} (hid : ∀ s ∈ segs, HarmlessId s.header.id)
    (hp : ∀ s ∈ segs, ∀ e, some e ∈ s.elements → Plain e)
    (hm : segs.map Seg.marshal = bs.map .ok) (hl : bs.flatten.length < 2 ^ 63) :
    (newExtractor bs.flatten).extract.2 = .ok bs ∧
    ∀ (i : Nat) (s : Seg) (b : Bytes), segs[i]? = some s → bs[i]? = some b →
      ∃ hb ps out, s.header.marshal = .ok hb ∧ s.elements.map DE.marshalOpt = ps.map .ok ∧
        DropTrailing (hb :: ps) out ∧ Segment.extractElements b = .ok out :=
  C15_structure (fun s hs => undisturbing_of_plain (hid s hs) (hp s hs)) hm hl

/-- The signature end segment with PIN `pin` (V2) followed by the message end. -/
def pinMessage (pin : Str) : List Seg :=
  [newSegment 4 c!"HNSHA" 2 [some (.alnum c!"42" 14), none, some (.group 2 [some (.alnum pin 99), none])],
   newSegment 5 c!"HNHBS" 1 [some (.number 2 4)]]

/-- C15: a PIN ending in `:` swallows the following segment. -/
theorem C15_pin_colon :
    (pinMessage c!"12345:").map Seg.marshal = [b!"HNSHA:4:2+42++12345?'", b!"HNHBS:5:1+2'"].map .ok ∧
    (newExtractor b!"HNSHA:4:2+42++12345?'HNHBS:5:1+2'").extract.2 =
      .ok [b!"HNSHA:4:2+42++12345?'HNHBS:5:1+2'"] ∧
    Segment.extractElements b!"HNSHA:4:2+42++12345?'HNHBS:5:1+2'" =
      .ok [b!"HNSHA:4:2", b!"42", b!"", b!"12345?'HNHBS:5:1", b!"2"] := ⟨rfl, by decide, by decide⟩

/-- C15: so does one ending in `+`. -/
theorem C15_pin_plus :
    (pinMessage c!"12345+").map Seg.marshal = [b!"HNSHA:4:2+42++12345?'", b!"HNHBS:5:1+2'"].map .ok := rfl

/-- C15: a text starting with NUL ends the message silently. -/
theorem C15_nul :
    (pinMessage c!"\x0012345").map Seg.marshal = [[72, 78, 83, 72, 65, 58, 52, 58, 50, 43, 52, 50, 43, 43, 0, 49, 50, 51, 52, 53, 39],
      b!"HNHBS:5:1+2'"].map .ok ∧
    (newExtractor ([72, 78, 83, 72, 65, 58, 52, 58, 50, 43, 52, 50, 43, 43, 0, 49, 50, 51, 52, 53, 39] ++ b!"HNHBS:5:1+2'")).extract.2 =
      .ok [] := ⟨rfl, by decide⟩

/-- C15: a text like `007,5` cannot be read. -/
theorem C15_zero_comma :
    (pinMessage c!"007,5").map Seg.marshal = [b!"HNSHA:4:2+42++007,5'", b!"HNHBS:5:1+2'"].map .ok ∧
    (newExtractor b!"HNSHA:4:2+42++007,5'HNHBS:5:1+2'").extract.2 = .err := ⟨rfl, by decide⟩

/-- Non-vacuity: a PIN full of syntax characters, including a forged segment. -/
example : (∀ s ∈ pinMessage c!"1+2:3'HKTAN:5:6+4'?@9@x", Undisturbing s) ∧
    (newExtractor b!"HNSHA:4:2+42++1?+2?:3?'HKTAN?:5?:6?+4?'???@9?@x'HNHBS:5:1+2'").extract.2 =
      .ok [b!"HNSHA:4:2+42++1?+2?:3?'HKTAN?:5?:6?+4?'???@9?@x'", b!"HNHBS:5:1+2'"] := by
  refine ⟨?_, by decide⟩
  intro s hs
  simp only [pinMessage, List.mem_cons, List.not_mem_nil, or_false] at hs
  rcases hs with rfl | rfl
  · refine undisturbing_of_plain ⟨by decide, not_malformed_head (by decide)⟩ ?_
    intro e he
    simp only [newSegment, List.mem_cons, Option.some.injEq, List.not_mem_nil, or_false] at he
    rcases he with rfl | h | rfl
    · simp only [Plain, PlainText]
      exact ⟨by decide, not_malformed_head (by decide), by decide, by decide⟩
    · cases h
    · simp only [Plain, PlainAll, PlainOpt, PlainText, and_true]
      exact ⟨by decide, not_malformed_head (by decide), by decide, by decide⟩
  · refine undisturbing_of_plain ⟨by decide, not_malformed_head (by decide)⟩ ?_
    intro e he
    simp only [newSegment, List.mem_cons, Option.some.injEq, List.not_mem_nil, or_false] at he
    subst he
    simp [Plain]

/-! ## C16: lookup -/

theorem groupById_eq (ss : List Bytes) : ∀ (m : Bytes → List Bytes) (k : Bytes),
    groupById ss m k = m k ++ ss.filter fun s => decide (k = beforeColon s) := by
  induction ss with
  | nil => intro m k; simp [groupById]
  | cons s ss ih =>
    intro m k
    rw [groupById, ih]
    by_cases h : k = beforeColon s
    · rw [if_pos h, List.filter_cons_of_pos (by simpa using h)]; simp
    · rw [if_neg h, List.filter_cons_of_neg (by simpa using h)]

/-- The segment starts with exactly this ID: the ID, then a colon or nothing. -/
def HasId (id s : Bytes) : Prop := (58 : Byte) ∉ id ∧ (s = id ∨ ∃ r, s = id ++ 58 :: r)

theorem beforeColon_iff {id s : Bytes} : id = beforeColon s ↔ HasId id s := by
  unfold beforeColon HasId
  constructor
  · rintro rfl
    refine ⟨?_, ?_⟩
    · intro h
      have := takeWhile_all _ h
      simp at this
    · cases hd : s.dropWhile (fun b => b != 58) with
      | nil =>
        left
        have := List.takeWhile_append_dropWhile (p := fun b : Byte => b != 58) (l := s)
        rw [hd, List.append_nil] at this
        exact this.symm
      | cons b r =>
        right
        have hb : b = 58 := by
          have := List.head?_dropWhile_not (p := fun b : Byte => b != 58) s
          rw [hd] at this
          simpa using this
        subst hb
        exact ⟨r, by rw [← hd, List.takeWhile_append_dropWhile]⟩
  · rintro ⟨hc, rfl | ⟨r, rfl⟩⟩
    · induction s with
      | nil => rfl
      | cons b s ih =>
        simp only [List.mem_cons, not_or] at hc
        rw [List.takeWhile_cons_of_pos (by simpa using Ne.symm hc.1), ← ih hc.2]
    · induction id with
      | nil => simp
      | cons b s ih =>
        simp only [List.mem_cons, not_or] at hc
        rw [List.cons_append, List.takeWhile_cons_of_pos (by simpa using Ne.symm hc.1), ← ih hc.2]

/-- C16: `FindSegments(id)` returns the segments with exactly this ID, in order and
with repetitions: the result is the one sublist whose members all have the ID and
whose number is that of the segments having it. -/
theorem C16_findSegments (e : Extractor) (id : Bytes) :
    (e.findSegments id).Sublist e.segments ∧ (∀ s, s ∈ e.findSegments id ↔ s ∈ e.segments ∧ HasId id s) ∧
    ∀ s, HasId id s → (e.findSegments id).count s = e.segments.count s := by
  have h : e.findSegments id = e.segments.filter fun s => decide (id = beforeColon s) := by
    unfold Extractor.findSegments
    rw [groupById_eq]; simp
  rw [h]
  refine ⟨List.filter_sublist, ?_, ?_⟩
  · intro s
    rw [List.mem_filter]
    simp [beforeColon_iff]
  · intro s hs
    exact List.count_filter (by simpa using beforeColon_iff.2 hs)

/-- C16: `FindSegment(id)` returns a segment exactly if it is the first whose bytes
begin with `id`. -/
theorem C16_findSegment (e : Extractor) (id s : Bytes) :
    e.findSegment id = some s ↔
      ∃ before after, e.segments = before ++ s :: after ∧ id <+: s ∧ ∀ x ∈ before, ¬ id <+: x := by
  unfold Extractor.findSegment
  rw [List.find?_eq_some_iff_append]
  simp only [List.isPrefixOf_iff_prefix, Bool.not_eq_true', ← Bool.not_eq_true, List.isPrefixOf_iff_prefix]
  constructor
  · rintro ⟨h1, a, b, h2, h3⟩; exact ⟨a, b, h2, h1, h3⟩
  · rintro ⟨a, b, h2, h1, h3⟩; exact ⟨h1, a, b, h2, h3⟩

/-- C16: it returns nothing exactly if no segment begins with `id`. -/
theorem C16_findSegment_none (e : Extractor) (id : Bytes) :
    e.findSegment id = none ↔ ∀ x ∈ e.segments, ¬ id <+: x := by
  unfold Extractor.findSegment
  simp

/-- C16: the two lookups agree if no segment's ID is longer than and begins with the
ID looked for. -/
theorem C16_agree (e : Extractor) (id : Bytes) (hc : (58 : Byte) ∉ id)
    (h : ∀ s ∈ e.segments, id <+: s → HasId id s) : e.findSegment id = (e.findSegments id).head? := by
  have h' : e.findSegments id = e.segments.filter fun s => decide (id = beforeColon s) := by
    unfold Extractor.findSegments
    rw [groupById_eq]; simp
  rw [h', List.head?_filter]
  unfold Extractor.findSegment
  revert h
  generalize e.segments = ss
  intro h
  induction ss with
  | nil => rfl
  | cons s ss ih =>
    have key : id.isPrefixOf s = decide (id = beforeColon s) := by
      rw [Bool.eq_iff_iff, List.isPrefixOf_iff_prefix, decide_eq_true_iff, beforeColon_iff]
      constructor
      · exact h s (by simp)
      · rintro ⟨_, rfl | ⟨r, rfl⟩⟩
        · exact List.prefix_refl _
        · exact List.prefix_append _ _
    rw [List.find?_cons, List.find?_cons, key]
    split
    · rfl
    · exact ih fun x hx => h x (by simp [hx])

/-- C16: a segment with a longer ID can be returned instead. -/
theorem C16_longer_id :
    (⟨[], [b!"HIKAZS:4:5+1'", b!"HIKAZ:5:5+@1@x'"]⟩ : Extractor).findSegment b!"HIKAZ" = some b!"HIKAZS:4:5+1'" ∧
    (⟨[], [b!"HIKAZS:4:5+1'", b!"HIKAZ:5:5+@1@x'"]⟩ : Extractor).findSegments b!"HIKAZ" = [b!"HIKAZ:5:5+@1@x'"] := by
  decide

/-- Non-vacuity of `C16_agree`. -/
example : ∃ e : Extractor, (∀ s ∈ e.segments, b!"HIRMS" <+: s → HasId b!"HIRMS" s) ∧
    e.findSegments b!"HIRMS" = [b!"HIRMS:3:2+1'", b!"HIRMS:5:2+3'"] := by
  refine ⟨⟨[], [b!"HIRMS:3:2+1'", b!"HIKAZ:4:5'", b!"HIRMS:5:2+3'"]⟩, ?_, by decide⟩
  intro s hs hp
  rw [← beforeColon_iff]
  simp only [List.mem_cons, List.not_mem_nil, or_false] at hs
  rcases hs with rfl | rfl | rfl
  · decide
  · exact absurd hp (by decide)
  · decide

/-! ## C17: repetition -/

/-- The state after `k` calls of `Extract`. -/
def extractTimes : Nat → Extractor → Extractor
  | 0, e => e
  | k + 1, e => (extractTimes k e).extract.1

/-- C17: if the first call succeeds with `ss`, so does every further one; after `k`
calls the extractor holds `ss` `k` times in a row, and that is what the `k`-th call
returns. -/
theorem C17_repeat {m : Bytes} {ss : List Bytes} (h : (newExtractor m).extract.2 = .ok ss) (k : Nat) :
    (extractTimes k (newExtractor m)).segments = (List.replicate k ss).flatten ∧
    (extractTimes k (newExtractor m)).extract.2 = .ok (List.replicate (k + 1) ss).flatten := by
  have key : ∀ old, Extractor.extract ⟨m, old⟩ = (⟨m, old ++ ss⟩, .ok (old ++ ss)) := by
    intro old
    unfold newExtractor Extractor.extract at h
    unfold Extractor.extract
    cases hl : lex m with
    | done ts =>
      simp only [hl] at h ⊢
      rw [extractLoop_acc ts [] old]
      split at h
      · rename_i hb
        simp only [Outcome.ok.injEq] at h
        simp [h, hb]
      · simp at h
    | panic ts => rw [hl] at h; simp at h
    | blocked ts => rw [hl] at h; simp at h
    | timeout ts => rw [hl] at h; simp at h
  have inv : ∀ k, extractTimes k (newExtractor m) = ⟨m, (List.replicate k ss).flatten⟩ := by
    intro k
    induction k with
    | zero => simp [extractTimes, newExtractor]
    | succ k ih =>
      rw [extractTimes, ih, key]
      rw [List.replicate_succ', List.flatten_append]
      simp
  rw [inv, key]
  refine ⟨rfl, ?_⟩
  rw [List.replicate_succ', List.flatten_append]
  simp

/-- C17: so a lookup by ID after `k` calls returns every match `k` times. -/
theorem C17_lookup {m : Bytes} {ss : List Bytes} (h : (newExtractor m).extract.2 = .ok ss) (k : Nat) (id : Bytes) :
    (extractTimes k (newExtractor m)).findSegments id =
      (List.replicate k ((newExtractor m).extract.1.findSegments id)).flatten := by
  have h1 := (C17_repeat h 1).1
  have hk := (C17_repeat h k).1
  simp only [extractTimes, List.replicate_one, List.flatten_singleton] at h1
  unfold Extractor.findSegments
  rw [hk, h1, groupById_eq, groupById_eq, List.filter_flatten]
  simp

/-- C17: whatever the outcome of a call, nothing held before is lost, and what is
added are segments of the message; a failing call adds those before the failure. -/
theorem C17_failing (e : Extractor) :
    ∃ ss r, e.extract.1 = ⟨e.raw, e.segments ++ ss⟩ ∧ e.raw = ss.flatten ++ r ∧ (∀ s ∈ ss, SegmentText s) ∧
      ∀ res, e.extract.2 = .ok res → res = e.segments ++ ss := by
  obtain ⟨raw, old⟩ := e
  obtain ⟨ss, u, r, h1, h2, _, h4 | h4 | h4⟩ := extract_cases raw old
  · refine ⟨ss, u ++ r, by rw [h4.2], by simpa using h1, h2, ?_⟩
    intro res hr
    rw [h4.2] at hr
    simp at hr
    exact hr.symm
  · refine ⟨ss, u ++ r, by rw [h4.2], by simpa using h1, h2, ?_⟩
    intro res hr
    rw [h4.2] at hr
    simp at hr
  · refine ⟨ss, u ++ r, by rw [h4.2], by simpa using h1, h2, ?_⟩
    intro res hr
    rw [h4.2] at hr
    simp at hr

/-- Non-vacuity of C17, and a failing call that keeps what was found before. -/
example : (extractTimes 3 (newExtractor b!"A:1:1'B:2:1'")).segments =
      [b!"A:1:1'", b!"B:2:1'", b!"A:1:1'", b!"B:2:1'", b!"A:1:1'", b!"B:2:1'"] ∧
    (newExtractor b!"A:1:1'B:2:1+007,5'C:1:1'").extract = (⟨b!"A:1:1'B:2:1+007,5'C:1:1'", [b!"A:1:1'"]⟩, .err) := by
  decide

end Verif.Message

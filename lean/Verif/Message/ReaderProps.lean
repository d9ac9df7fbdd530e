import Verif.Message.ReaderLemmas
import Verif.Element.GroupsLemmas
import Mathlib.Data.List.Forall2

/-
Properties C23, C61, C65, C67 and C68: reading the bank's messages.
-/

namespace Verif.Message

open GoLib Element Segment Domain Token Verif.Token.Spec Verif.Message.Spec Verif.Element.Spec

/-! ## C61: one acknowledgement -/

/-- C61: for an element made of the parts `init` and `p` in which no `+` and no `'`
occurs, decoding succeeds exactly when there are at least three parts and the first
is a decimal integer in range; the result holds the parts in order. -/
theorem C61_accepts {init : List Bytes} {p : Bytes} (hi : ∀ q ∈ init, Part q) (hp : Part p)
    (hl : (pre 58 init ++ p).length < 2 ^ 63) (h43 : (43 : Byte) ∉ pre 58 init ++ p)
    (h39 : (39 : Byte) ∉ pre 58 init ++ p) (a : AckEntry) :
    unmarshalAck (pre 58 init ++ p) = .ok a ↔
      ∃ c r t ps, init ++ [p] = c :: r :: t :: ps ∧ Decimal c a.code ∧ IsInt a.code ∧
        a.reference = Charset.toUTF8 r ∧ a.text = Charset.toUTF8 t ∧ a.params = ps.map Charset.toUTF8 := by
  unfold unmarshalAck
  rw [extract_parts hi hp hl, if_neg (by simp [h43, h39])]
  simp only [Outcome.bind]
  constructor
  · intro h
    split at h
    · rename_i c r t ps he
      cases hx : atoi c with
      | none => simp [hx, Outcome.ofOption, Outcome.map'] at h
      | some n =>
        simp only [hx, Outcome.ofOption, Outcome.map', Outcome.ok.injEq] at h
        subst h
        exact ⟨c, r, t, ps, he, (decimal_iff.1 hx).1, (decimal_iff.1 hx).2, rfl, rfl, rfl⟩
    · simp at h
  · rintro ⟨c, r, t, ps, he, h1, h2, h3, h4, h5⟩
    rw [he]
    simp only [decimal_iff.2 ⟨h1, h2⟩, Outcome.ofOption, Outcome.map', Outcome.ok.injEq]
    cases a
    simp_all

/-- C61: if a `+` or `'` occurs in the element (necessarily escaped or inside binary
data) and the last part is not empty, decoding fails: the element's text is tokenised
without a terminator. -/
theorem C61_separator {init : List Bytes} {p : Bytes} (hi : ∀ q ∈ init, Part q) (hp : Part p) (hne : p ≠ [])
    (hl : (pre 58 init ++ p).length < 2 ^ 63)
    (h : (43 : Byte) ∈ pre 58 init ++ p ∨ (39 : Byte) ∈ pre 58 init ++ p) :
    unmarshalAck (pre 58 init ++ p) = .err := by
  unfold unmarshalAck
  rw [extract_parts hi hp hl, if_pos h, if_neg hne]
  rfl

/-- How a bank writes an acknowledgement: four digit code, reference, text and
parameters, escaped. -/
def writtenAck (code : Nat) (r t : Str) (ps : List Str) : Bytes :=
  join 58 (zeroPad 4 code :: (r :: t :: ps).map fun s => enc (escape s))

theorem writtenAck_parts (code : Nat) (r t : Str) (ps : List Str) :
    ∃ init p, zeroPad 4 code :: (r :: t :: ps).map (fun s => enc (escape s)) = init ++ [p] ∧
      writtenAck code r t ps = pre 58 init ++ p := by
  rcases List.eq_nil_or_concat (zeroPad 4 code :: (r :: t :: ps).map fun s => enc (escape s)) with h | ⟨init, p, h⟩
  · simp at h
  · rw [List.concat_eq_append] at h
    exact ⟨init, p, h, by unfold writtenAck; rw [h, join_snoc]⟩

theorem zeroPad_plain (n : Nat) : ∀ b ∈ zeroPad 4 n, Spec.Digit b := by
  unfold zeroPad
  dsimp only
  rw [if_neg (by omega)]
  exact (zeros_digits (natDec_digits _)).2

/-- C61: code, reference, text and parameters arrive in order; texts arrive as they
are written, with their escape signs. -/
theorem C61_wire {code : Nat} (hc : code < 10000) {r t : Str} {ps : List Str}
    (hs : ∀ s ∈ r :: t :: ps, Sendable s ∧ '+' ∉ s ∧ '\'' ∉ s)
    (hl : (writtenAck code r t ps).length < 2 ^ 63) :
    unmarshalAck (writtenAck code r t ps) = .ok ⟨code, escape r, escape t, ps.map escape⟩ := by
  obtain ⟨init, p, h1, h2⟩ := writtenAck_parts code r t ps
  have hparts : ∀ q ∈ init ++ [p], Part q ∧ (43 : Byte) ∉ q ∧ (39 : Byte) ∉ q := by
    rw [← h1]
    intro q hq
    simp only [List.mem_cons, List.mem_map] at hq
    rcases hq with rfl | ⟨s, hs', rfl⟩
    · refine ⟨Or.inr (zeroPad_value 4 code), fun h => ?_, fun h => ?_⟩ <;>
        exact absurd (zeroPad_plain code _ h) (by simp [Spec.Digit])
    · obtain ⟨h3, h4, h5⟩ := hs s (by simpa using hs')
      exact ⟨part_of_sendable h3, fun h => h4 ((mem_enc_escape h3.1 (Or.inl rfl)).1 h),
        fun h => h5 ((mem_enc_escape h3.1 (Or.inr rfl)).1 h)⟩
  have hno : ∀ b : Byte, (b = 43 ∨ b = 39) → b ∉ pre 58 init ++ p := by
    intro b hb h
    simp only [List.mem_append, pre, List.mem_flatMap, List.mem_singleton] at h
    rcases h with ⟨q, hq, h | h⟩ | h
    · have := hparts q (by simp [hq]); rcases hb with rfl | rfl <;> tauto
    · subst h; rcases hb with h | h <;> exact absurd h (by decide)
    · have := hparts p (by simp); rcases hb with rfl | rfl <;> tauto
  rw [h2] at hl ⊢
  rw [C61_accepts (fun q hq => (hparts q (by simp [hq])).1) (hparts p (by simp)).1 hl
    (hno 43 (Or.inl rfl)) (hno 39 (Or.inr rfl))]
  have hi : IsInt (code : Int) := by unfold IsInt; omega
  have hu : ∀ s ∈ r :: t :: ps, Charset.toUTF8 (enc (escape s)) = escape s := fun s h =>
    toUTF8_enc (escape_latin1.2 (hs s h).1.1)
  refine ⟨_, _, _, _, h1.symm, (decimal_iff.1 (atoi_zeroPad 4 code hi)).1, hi, (hu r (by simp)).symm,
    (hu t (by simp)).symm, ?_⟩
  simp only [List.map_map]
  apply List.map_congr_left
  intro s h
  exact (hu s (by simp [h])).symm

/-- C61: if some text has a `+` or `'` and the last one is not empty, the
acknowledgement cannot be decoded at all. -/
theorem C61_wire_separator {code : Nat} {r t : Str} {ps : List Str}
    (hs : ∀ s ∈ r :: t :: ps, Sendable s) (hlast : (t :: ps).getLast? ≠ some [])
    (hl : (writtenAck code r t ps).length < 2 ^ 63) (h : ∃ s ∈ r :: t :: ps, '+' ∈ s ∨ '\'' ∈ s) :
    unmarshalAck (writtenAck code r t ps) = .err := by
  obtain ⟨init, p, h1, h2⟩ := writtenAck_parts code r t ps
  have hparts : ∀ q ∈ init ++ [p], Part q := by
    rw [← h1]
    intro q hq
    simp only [List.mem_cons, List.mem_map] at hq
    rcases hq with rfl | ⟨s, hs', rfl⟩
    · exact Or.inr (zeroPad_value 4 code)
    · exact part_of_sendable (hs s (by simpa using hs'))
  have hp : p ≠ [] := by
    rintro rfl
    have := congrArg List.getLast? h1
    rw [List.getLast?_concat, List.map_cons, List.getLast?_cons_cons, List.map_cons,
      List.getLast?_cons_cons] at this
    change ((t :: ps).map fun s => enc (escape s)).getLast? = some [] at this
    rw [List.getLast?_map] at this
    simp only [Option.map_eq_some_iff] at this
    obtain ⟨x, hx, he⟩ := this
    rw [hx, enc_escape_nil.1 he] at hlast
    exact hlast rfl
  obtain ⟨s, hs', hsep⟩ := h
  have hmem : ∀ b ∈ enc (escape s), b ∈ pre 58 init ++ p := by
    intro b hb
    have : enc (escape s) ∈ init ++ [p] := by
      rw [← h1]; exact List.mem_cons_of_mem _ (List.mem_map.2 ⟨s, hs', rfl⟩)
    simp only [List.mem_append, List.mem_singleton] at this
    simp only [List.mem_append, pre, List.mem_flatMap]
    rcases this with h | h
    · exact Or.inl ⟨_, h, Or.inl hb⟩
    · exact Or.inr (h ▸ hb)
  rw [h2] at hl ⊢
  refine C61_separator (fun q hq => hparts q (by simp [hq])) (hparts p (by simp)) hp hl ?_
  rcases hsep with h | h
  · exact Or.inl (hmem _ ((mem_enc_escape (hs s hs').1 (Or.inl rfl)).2 h))
  · exact Or.inr (hmem _ ((mem_enc_escape (hs s hs').1 (Or.inr rfl)).2 h))

/-- Non-vacuity of `C61_wire`, and escape signs are kept. -/
example : unmarshalAck b!"0010:5:Angenommen ?: 3 Tage:902:903" =
    .ok ⟨10, c!"5", c!"Angenommen ?: 3 Tage", [c!"902", c!"903"]⟩ := by decide

/-- Non-vacuity of `C61_wire_separator`: the text "PIN?+TAN falsch". -/
example : writtenAck 9930 [] c!"PIN+TAN falsch" [] = b!"9930::PIN?+TAN falsch" ∧
    unmarshalAck b!"9930::PIN?+TAN falsch" = .err := by decide

/-! ## C65: reading a message -/

/-- The first element of the segment is the header `h`. -/
def Reads (s : Bytes) (h : Header) : Prop :=
  ∃ f rest, Segment.extractElements s = .ok (f :: rest) ∧ unmarshalHeader f = .ok h

theorem reads_iff {s : Bytes} {h : Header} : extractSegmentHeader s = .ok h ↔ Reads s h := by
  unfold extractSegmentHeader Reads
  cases hx : Segment.extractElements s with
  | err => simp [Outcome.bind]
  | panic => simp [Outcome.bind]
  | ok es => cases es <;> simp [Outcome.bind]

theorem reads_unique {s : Bytes} {h h' : Header} (h1 : Reads s h) (h2 : Reads s h') : h = h' := by
  rw [← reads_iff] at h1 h2
  rw [h1] at h2
  exact Outcome.ok.inj h2

theorem header_panic_iff {s : Bytes} (hs : SegmentText s) (hl : s.length < 2 ^ 63) :
    extractSegmentHeader s = .panic ↔ s = [39] := by
  obtain ⟨es, h1, h2, h3⟩ := segmentText_elements hs hl
  unfold extractSegmentHeader
  rw [h1, ← h3]
  cases es with
  | nil => simp [Outcome.bind]
  | cons f es => simpa [Outcome.bind] using unmarshalHeader_no_panic (h2 f (by simp)).1 (h2 f (by simp)).2

/-- What a message with the segments `ss` and headers `hs` yields for an ID: the
decoding results of its known segments, in order. -/
def decodings {σ : Type} (other : Decoders σ) (ss : List Bytes) (hs : List Header) (id : Str) :
    List (Outcome (Decoded σ)) :=
  (ss.zip hs).filterMap fun p => if p.2.id = id then (decoderFor other p.2.id p.2.version).map fun f => f p.1 else none

theorem readSegments_ok {σ : Type} {other : Decoders σ} {ss : List Bytes} {m0 m : SegmentMap σ} :
    readSegments other ss m0 = .ok m ↔
      ∃ hs, List.Forall₂ Reads ss hs ∧ ∀ id, (m id).map Outcome.ok = (m0 id).map Outcome.ok ++ decodings other ss hs id := by
  induction ss generalizing m0 with
  | nil =>
    simp only [readSegments, Outcome.ok.injEq]
    constructor
    · rintro rfl; exact ⟨[], .nil, fun id => by simp [decodings]⟩
    · rintro ⟨hs, h1, h2⟩
      cases h1
      funext id
      have := h2 id
      simp only [decodings, List.zip_nil_left, List.filterMap_nil, List.append_nil] at this
      exact ((List.map_inj_right fun a b h => Outcome.ok.inj h).1 this).symm
  | cons s ss ih =>
    unfold readSegments readSegment
    cases hx : extractSegmentHeader s with
    | err =>
      simp only [Outcome.bind, reduceCtorEq, false_iff]
      rintro ⟨hs, h1, _⟩
      cases h1 with
      | cons h _ => rw [reads_iff.2 h] at hx; cases hx
    | panic =>
      simp only [Outcome.bind, reduceCtorEq, false_iff]
      rintro ⟨hs, h1, _⟩
      cases h1 with
      | cons h _ => rw [reads_iff.2 h] at hx; cases hx
    | ok h =>
      have hr := reads_iff.1 hx
      have hcons : ∀ P : List Header → Prop, (∃ hs, List.Forall₂ Reads (s :: ss) hs ∧ P hs) ↔
          ∃ hs, List.Forall₂ Reads ss hs ∧ P (h :: hs) := by
        intro P
        constructor
        · rintro ⟨hs, h1, h2⟩
          cases h1 with
          | cons h3 h4 =>
            cases reads_unique hr h3
            exact ⟨_, h4, h2⟩
        · rintro ⟨hs, h1, h2⟩
          exact ⟨_, .cons hr h1, h2⟩
      rw [hcons]
      simp only [Outcome.bind]
      cases hd : decoderFor other h.id h.version with
      | none =>
        simp only [ih]
        refine exists_congr fun hs => and_congr_right fun _ => forall_congr' fun id => ?_
        simp [decodings, hd]
      | some f =>
        cases hf : f s with
        | ok d =>
          simp only [Outcome.map', hf, ih]
          refine exists_congr fun hs => and_congr_right fun _ => forall_congr' fun id => ?_
          by_cases hid : h.id = id
          · subst hid
            simp [decodings, hd, hf]
          · rw [if_neg (Ne.symm hid)]
            simp [decodings, hid]
        | err =>
          simp only [Outcome.map', hf, reduceCtorEq, false_iff]
          rintro ⟨hs, _, h2⟩
          have := h2 h.id
          simp only [decodings, List.zip_cons_cons, List.filterMap_cons, if_true, hd, Option.map_some, hf] at this
          have hm : Outcome.err ∈ (m h.id).map Outcome.ok := by rw [this]; simp
          simp at hm
        | panic =>
          simp only [Outcome.map', hf, reduceCtorEq, false_iff]
          rintro ⟨hs, _, h2⟩
          have := h2 h.id
          simp only [decodings, List.zip_cons_cons, List.filterMap_cons, if_true, hd, Option.map_some, hf] at this
          have hm : Outcome.panic ∈ (m h.id).map Outcome.ok := by rw [this]; simp
          simp at hm

/-- C65: reading a message succeeds with the segment table `m` exactly when the
message can be segmented, every segment has a readable header, and for every ID the
known segments with that ID all decode, `m` holding the results in order of arrival.
Unknown segments are skipped. -/
theorem C65_reads {σ : Type} (other : Decoders σ) (raw : Bytes) (m : SegmentMap σ) :
    (∃ e, unmarshalMessage other raw = .ok (m, e)) ↔
      ∃ ss hs, (newExtractor raw).extract.2 = .ok ss ∧ List.Forall₂ Reads ss hs ∧
        ∀ id, (m id).map Outcome.ok = decodings other ss hs id := by
  unfold unmarshalMessage
  cases hx : (newExtractor raw).extract.2 with
  | err => simp [hx, Outcome.bind]
  | panic => simp [hx, Outcome.bind]
  | ok ss =>
    have := readSegments_ok (other := other) (ss := ss) (m0 := fun _ => []) (m := m)
    simp only [List.map_nil, List.nil_append] at this
    simp only [hx, Outcome.bind, Outcome.ok.injEq, exists_and_left, exists_eq_left']
    rw [← this]
    cases readSegments other ss fun _ => [] <;> simp [Outcome.map']

/-- C65: the extractor kept with the message holds its segments. -/
theorem C65_extractor {σ : Type} {other : Decoders σ} {raw : Bytes} {m : SegmentMap σ} {e : Extractor}
    (h : unmarshalMessage other raw = .ok (m, e)) : (newExtractor raw).extract.2 = .ok e.segments := by
  unfold unmarshalMessage at h
  cases hx : (newExtractor raw).extract.2 with
  | err => simp [hx, Outcome.bind] at h
  | panic => simp [hx, Outcome.bind] at h
  | ok ss =>
    have := extract_segments hx
    simp only [hx, Outcome.bind] at h
    cases hy : readSegments other ss fun _ => [] with
    | err => simp [hy, Outcome.map'] at h
    | panic => simp [hy, Outcome.map'] at h
    | ok m' =>
      simp only [hy, Outcome.map', Outcome.ok.injEq, Prod.mk.injEq] at h
      rw [← h.2, this]

theorem readSegments_panic {σ : Type} {other : Decoders σ} {ss : List Bytes} {m0 : SegmentMap σ} :
    readSegments other ss m0 = .panic ↔
      ∃ before s after m, ss = before ++ s :: after ∧ readSegments other before m0 = .ok m ∧
        (extractSegmentHeader s = .panic ∨
          ∃ h f, Reads s h ∧ decoderFor other h.id h.version = some f ∧ f s = .panic) := by
  induction ss generalizing m0 with
  | nil => simp [readSegments]
  | cons s ss ih =>
    have hone : readSegment other m0 s = .panic ↔ (extractSegmentHeader s = .panic ∨
          ∃ h f, Reads s h ∧ decoderFor other h.id h.version = some f ∧ f s = .panic) := by
      unfold readSegment
      simp only [← reads_iff]
      cases hx : extractSegmentHeader s with
      | err => simp [Outcome.bind]
      | panic => simp [Outcome.bind]
      | ok h =>
        simp only [Outcome.bind, Outcome.ok.injEq, reduceCtorEq, false_or, exists_and_left, exists_eq_left']
        cases hd : decoderFor other h.id h.version with
        | none => simp
        | some f => cases hf : f s <;> simp [hf, Outcome.map']
    rw [readSegments]
    cases hx : readSegment other m0 s with
    | err =>
      simp only [Outcome.bind, reduceCtorEq, false_iff]
      rintro ⟨before, s', after, m, h1, h2, h3⟩
      cases before with
      | nil =>
        obtain ⟨rfl, rfl⟩ : s = s' ∧ ss = after := by simpa using h1
        rw [hone.2 h3] at hx; cases hx
      | cons b before =>
        obtain ⟨rfl, rfl⟩ : s = b ∧ ss = before ++ s' :: after := by simpa using h1
        simp [readSegments, hx, Outcome.bind] at h2
    | panic =>
      simp only [Outcome.bind, true_iff]
      exact ⟨[], s, ss, m0, rfl, rfl, hone.1 hx⟩
    | ok m1 =>
      simp only [Outcome.bind, ih]
      constructor
      · rintro ⟨before, s', after, m, rfl, h2, h3⟩
        exact ⟨s :: before, s', after, m, rfl, by simpa [readSegments, hx, Outcome.bind] using h2, h3⟩
      · rintro ⟨before, s', after, m, h1, h2, h3⟩
        cases before with
        | nil =>
          obtain ⟨rfl, rfl⟩ : s = s' ∧ ss = after := by simpa using h1
          rw [hone.2 h3] at hx; cases hx
        | cons b before =>
          obtain ⟨rfl, rfl⟩ : s = b ∧ ss = before ++ s' :: after := by simpa using h1
          exact ⟨before, s', after, m, rfl, by simpa [readSegments, hx, Outcome.bind] using h2, h3⟩

/-- C65: reading panics exactly when the lexer does, or the segments before some
segment `s` can all be read and `s` is a lone terminator or has a known kind, other
than the acknowledgements, whose decoder panics. -/
theorem C65_panic {σ : Type} (other : Decoders σ) {raw : Bytes} (hl : raw.length < 2 ^ 63) :
    unmarshalMessage other raw = .panic ↔
      (newExtractor raw).extract.2 = .panic ∨
      ∃ before s after hs, (newExtractor raw).extract.2 = .ok (before ++ s :: after) ∧
        List.Forall₂ Reads before hs ∧ (∀ id, ∀ o ∈ decodings other before hs id, ∃ d, o = .ok d) ∧
        (s = [39] ∨ ∃ h f, Reads s h ∧ h.id ≠ c!"HIRMG" ∧ h.id ≠ c!"HIRMS" ∧
          other h.id h.version = some f ∧ f s = .panic) := by
  unfold unmarshalMessage
  cases hx : (newExtractor raw).extract.2 with
  | err => simp [hx, Outcome.bind]
  | panic => simp [hx, Outcome.bind]
  | ok ss =>
    obtain ⟨u, r, h1, h2, _, _⟩ := (C14_extract_iff hl ss).1 hx
    have hlen : ∀ s ∈ ss, s.length < 2 ^ 63 := by
      intro s hs
      obtain ⟨a, b, rfl⟩ := List.append_of_mem hs
      have := congrArg List.length h1
      simp at this
      omega
    simp only [hx, Outcome.bind, reduceCtorEq, Outcome.ok.injEq, false_or]
    have : ((readSegments other ss fun _ => []).map' fun m => (m, (newExtractor raw).extract.1)) = .panic ↔
        readSegments other ss (fun _ => []) = .panic := by
      cases readSegments other ss fun _ => [] <;> simp [Outcome.map']
    rw [this, readSegments_panic]
    constructor
    · rintro ⟨before, s, after, m, rfl, h3, h4⟩
      obtain ⟨hs, h5, h6⟩ := readSegments_ok.1 h3
      refine ⟨before, s, after, hs, rfl, h5, ?_, ?_⟩
      · intro id o ho
        have := h6 id
        simp only [List.map_nil, List.nil_append] at this
        rw [← this] at ho
        obtain ⟨d, _, rfl⟩ := List.mem_map.1 ho
        exact ⟨d, rfl⟩
      · rcases h4 with h4 | ⟨h, f, h4, h7, h8⟩
        · exact Or.inl ((header_panic_iff (h2 s (by simp)) (hlen s (by simp))).1 h4)
        · right
          have hn := unmarshalAckSegment_no_panic (h2 s (by simp)) (hlen s (by simp))
          unfold decoderFor at h7
          split at h7
          · split at h7
            · simp only [Option.some.injEq] at h7
              subst h7
              cases hy : unmarshalAckSegment .message s with
              | ok => simp [hy, Outcome.map'] at h8
              | err => simp [hy, Outcome.map'] at h8
              | panic => exact absurd hy (hn _)
            · cases h7
          · split at h7
            · split at h7
              · simp only [Option.some.injEq] at h7
                subst h7
                cases hy : unmarshalAckSegment .segment s with
                | ok => simp [hy, Outcome.map'] at h8
                | err => simp [hy, Outcome.map'] at h8
                | panic => exact absurd hy (hn _)
              · cases h7
            · rename_i hg hs'
              simp only [Option.map_eq_some_iff] at h7
              obtain ⟨g, hg', rfl⟩ := h7
              refine ⟨h, g, h4, hg, hs', hg', ?_⟩
              cases hy : g s <;> simp [hy, Outcome.map'] at h8 ⊢
    · rintro ⟨before, s, after, hs, rfl, h5, h6, h7⟩
      have hm : ∀ id, ∃ l : List (Decoded σ), l.map Outcome.ok = decodings other before hs id := by
        intro id
        have := h6 id
        revert this
        generalize decodings other before hs id = os
        intro this
        induction os with
        | nil => exact ⟨[], rfl⟩
        | cons o os ih =>
          obtain ⟨d, rfl⟩ := this o (by simp)
          obtain ⟨l, rfl⟩ := ih fun o ho => this o (by simp [ho])
          exact ⟨d :: l, rfl⟩
      choose m hm using hm
      refine ⟨before, s, after, m, rfl, readSegments_ok.2 ⟨hs, h5, by simpa using hm⟩, ?_⟩
      rcases h7 with rfl | ⟨h, f, h7, h8, h9, h10, h11⟩
      · exact Or.inl ((header_panic_iff (h2 _ (by simp)) (hlen _ (by simp))).2 rfl)
      · refine Or.inr ⟨h, fun b => (f b).map' .other, h7, ?_, ?_⟩
        · unfold decoderFor
          rw [if_neg h8, if_neg h9, h10]
          rfl
        · simp [h11, Outcome.map']

/-- Non-vacuity of `C65_reads` and `C65_panic`: an unknown segment is skipped, a lone
terminator after it panics, behind an unreadable segment it does not. -/
example : ((unmarshalMessage (σ := Unit) (fun _ _ => none) b!"HIRMG:2:2+0010::ok'HIXYZ:3:1+1'").map'
      fun r => ((r.1 c!"HIRMG").length, (r.1 c!"HIXYZ").length)) = .ok (1, 0) ∧
    ((unmarshalMessage (σ := Unit) (fun _ _ => none) b!"HIRMG:2:2+0010::ok''").map' fun _ => ()) = .panic ∧
    ((unmarshalMessage (σ := Unit) (fun _ _ => none) b!"HIRMG:2:2+9010'' ").map' fun _ => ()) = .err := by
  decide

/-! ## C23: the acknowledgements of a response -/

/-- `acks` are the acknowledgements written in the segment `s` with header `h`: one for
each element behind the header, in order, with the given type, message reference and
segment number. -/
def AcksOf (type : AckType) (ref : MessageReference) (number : Header → Int) (p : Bytes × Header)
    (acks : List Acknowledgement) : Prop :=
  ∃ f es as, Segment.extractElements p.1 = .ok (f :: es) ∧ List.Forall₂ (fun e a => unmarshalAck e = .ok a) es as ∧
    acks = as.map fun a => ⟨type, a.code, a.reference, a.text, a.params, ref, number p.2⟩

/-- The segments with the given ID in version 2. -/
def version2 (id : Str) (ss : List Bytes) (hs : List Header) : List (Bytes × Header) :=
  (ss.zip hs).filter fun p => decide (p.2.id = id ∧ p.2.version = 2)

/-- The number of the segment a header refers to, or `d`. -/
def referenced (d : Int) (h : Header) : Int := h.ref.getD d

theorem unmarshalAckSegment_ok {type : AckType} {s : Bytes} {h : Header} (hr : Reads s h) (a : AckSegment) :
    unmarshalAckSegment type s = .ok a ↔
      ∃ f es as, Segment.extractElements s = .ok (f :: es) ∧ List.Forall₂ (fun e a => unmarshalAck e = .ok a) es as ∧
        a = ⟨type, h, as, ⟨[], 0⟩⟩ := by
  obtain ⟨f, es, h1, h2⟩ := hr
  unfold unmarshalAckSegment
  simp only [h1, Outcome.bind, h2, Outcome.ok.injEq, List.cons.injEq]
  have hf : ∀ as, unmarshalAcks es = .ok as ↔ List.Forall₂ (fun e a => unmarshalAck e = .ok a) es as := by
    intro as
    rw [unmarshalAcks_ok]
    conv => lhs; rw [show (es.map unmarshalAck = as.map Outcome.ok) = List.Forall₂ (· = ·) _ _ from by rw [List.forall₂_eq_eq_eq]]
    rw [List.forall₂_map_left_iff, List.forall₂_map_right_iff]
  constructor
  · intro h
    cases hx : unmarshalAcks es with
    | err => simp [hx, Outcome.map'] at h
    | panic => simp [hx, Outcome.map'] at h
    | ok as =>
      simp only [hx, Outcome.map', Outcome.ok.injEq] at h
      exact ⟨f, es, as, ⟨rfl, rfl⟩, (hf as).1 hx, h.symm⟩
  · rintro ⟨f', es', as, ⟨rfl, rfl⟩, h3, rfl⟩
    rw [(hf as).2 h3]
    rfl

theorem decodings_ack {σ : Type} (other : Decoders σ) (type : AckType) (id : Str)
    (hid : ∀ v, decoderFor other id v =
      if v = 2 then some fun b => (unmarshalAckSegment type b).map' .ack else none)
    (ss : List Bytes) (hs : List Header) :
    decodings other ss hs id = (version2 id ss hs).map fun p => (unmarshalAckSegment type p.1).map' .ack := by
  unfold decodings version2
  induction ss.zip hs with
  | nil => rfl
  | cons p ps ih =>
    rw [List.filterMap_cons, List.filter_cons]
    by_cases h1 : p.2.id = id
    · by_cases h2 : p.2.version = 2
      · simp [h1, h2, hid, ih]
      · simp [h1, h2, hid, ih]
    · simp [h1, ih]

theorem forall₂_zip {ss : List Bytes} {hs : List Header} (h : List.Forall₂ Reads ss hs) :
    ∀ p ∈ ss.zip hs, Reads p.1 p.2 := by
  induction h with
  | nil => simp
  | cons h1 _ ih =>
    intro p hp
    simp only [List.zip_cons_cons, List.mem_cons] at hp
    rcases hp with rfl | hp
    · exact h1
    · exact ih p hp

theorem decoded_acks {σ : Type} {type : AckType} {ps : List (Bytes × Header)} (hr : ∀ p ∈ ps, Reads p.1 p.2)
    {ds : List (Decoded σ)}
    (h : ds.map Outcome.ok = ps.map fun p => (unmarshalAckSegment type p.1).map' Decoded.ack) :
    ∃ as : List AckSegment, ds = as.map Decoded.ack ∧
      List.Forall₂ (fun p a => ∃ f es entries, Segment.extractElements p.1 = .ok (f :: es) ∧
        List.Forall₂ (fun e a => unmarshalAck e = .ok a) es entries ∧ a = ⟨type, p.2, entries, ⟨[], 0⟩⟩) ps as := by
  induction ps generalizing ds with
  | nil =>
    simp only [List.map_nil, List.map_eq_nil_iff] at h
    exact ⟨[], by simp [h], .nil⟩
  | cons p ps ih =>
    cases ds with
    | nil => simp at h
    | cons d ds =>
      simp only [List.map_cons, List.cons.injEq] at h
      obtain ⟨as, rfl, h2⟩ := ih (fun q hq => hr q (by simp [hq])) h.2
      cases hx : unmarshalAckSegment type p.1 with
      | err => simp [hx, Outcome.map'] at h
      | panic => simp [hx, Outcome.map'] at h
      | ok a =>
        simp only [hx, Outcome.map', Outcome.ok.injEq] at h
        exact ⟨a :: as, by simp [h.1], .cons ((unmarshalAckSegment_ok (hr p (by simp)) a).1 hx) h2⟩

theorem segmentAcks_map {σ : Type} (as : List AckSegment) :
    segmentAcks (as.map (Decoded.ack (σ := σ))) = .ok (as.map AckSegment.acknowledgements).flatten := by
  induction as with
  | nil => rfl
  | cons a as ih => simp [segmentAcks, ih, Outcome.map']

theorem message_number (o : Option Int) :
    (if o.getD (-1) = -1 then 0 else o.getD (-1)) = if o = some (-1) then 0 else o.getD 0 := by
  cases o <;> simp

/-- C23: a response that was read reports the acknowledgements of the first HIRMG
segment, with the message reference of the message header (an empty one if there is
none), and then those of every
HIRMS segment, in order; each with its type and the segment number of its header.
HIRMS acknowledgements carry no message reference.  A HIRMG header without a
reference, or with the reference -1, gives the number 0; a HIRMS header without one
-1.   A HIRMG or HIRMS in another
version than 2 and a second HIRMG are ignored. -/
theorem C23_acknowledgements {σ : Type} {other : Decoders σ} {header : ReadHeader} {raw : Bytes} {d : Decrypted σ}
    (h : newDecrypted other header raw = .ok d) :
    ∃ ss hs mine theirs, (newExtractor raw).extract.2 = .ok ss ∧ List.Forall₂ Reads ss hs ∧
      d.acknowledgements = mine ++ theirs.flatten ∧
      (∀ p, (version2 c!"HIRMG" ss hs).head? = some p →
        AcksOf .message (header.ref.elim ⟨[], 0⟩ fun r => ⟨r.1, r.2⟩) (fun h => if h.ref = some (-1) then 0 else referenced 0 h) p mine) ∧
      ((version2 c!"HIRMG" ss hs) = [] → mine = []) ∧
      List.Forall₂ (AcksOf .segment ⟨[], 0⟩ (referenced (-1))) (version2 c!"HIRMS" ss hs) theirs := by
  unfold newDecrypted at h
  cases hu : unmarshalMessage other raw with
  | err => simp [hu, Outcome.bind] at h
  | panic => simp [hu, Outcome.bind] at h
  | ok u =>
    obtain ⟨ss, hs, h1, h2, h3⟩ := (C65_reads other raw u.1).1 ⟨u.2, hu⟩
    have hz := forall₂_zip h2
    have hg := h3 c!"HIRMG"
    rw [decodings_ack other .message c!"HIRMG" (fun v => by simp [decoderFor])] at hg
    have hm := h3 c!"HIRMS"
    rw [decodings_ack other .segment c!"HIRMS" (fun v => by simp [decoderFor])] at hm
    obtain ⟨gs, hg1, hg2⟩ := decoded_acks (ps := version2 c!"HIRMG" ss hs) (fun p hp => hz p (List.mem_filter.1 hp).1) hg
    obtain ⟨as, hm1, hm2⟩ := decoded_acks (ps := version2 c!"HIRMS" ss hs) (fun p hp => hz p (List.mem_filter.1 hp).1) hm
    simp only [hu, Outcome.bind, hm1, segmentAcks_map] at h
    cases hv : header.hbciVersion with
    | none => simp [hv] at h
    | some n =>
      cases hw : supportedVersion n with
      | none => simp [hv, hw] at h
      | some v =>
        simp only [hv, hw, Outcome.ok.injEq] at h
        subst h
        refine ⟨ss, hs, messageAcks u.1 header.referencingMessage, as.map AckSegment.acknowledgements, h1, h2, rfl, ?_, ?_, ?_⟩
        · intro p hp
          unfold messageAcks
          rw [hg1]
          revert hp
          generalize version2 c!"HIRMG" ss hs = ps at hg2
          intro hp
          cases hg2 with
          | nil => simp at hp
          | cons h4 _ =>
            simp only [List.head?_cons, Option.some.injEq] at hp
            subst hp
            obtain ⟨f, es, entries, h5, h6, rfl⟩ := h4
            refine ⟨f, es, entries, h5, h6, ?_⟩
            have hr : header.referencingMessage = header.ref.elim ⟨[], 0⟩ fun r => ⟨r.1, r.2⟩ := by
              unfold ReadHeader.referencingMessage
              cases header.ref <;> rfl
            rw [← hr]
            simp only [List.map_cons, List.head?_cons, AckSegment.acknowledgements, AckSegment.setReferencingMessage,
              AckSegment.segmentNumber, Header.referencing, referenced]
            refine List.map_congr_left fun a _ => ?_
            congr 1
            exact message_number _
        · intro hp
          rw [hp] at hg2
          cases hg2
          simp [messageAcks, hg1]
        · rw [List.forall₂_map_right_iff]
          refine hm2.imp ?_
          rintro p a ⟨f, es, entries, h5, h6, rfl⟩
          refine ⟨f, es, entries, h5, h6, ?_⟩
          simp [AckSegment.acknowledgements, AckSegment.segmentNumber, Header.referencing, referenced]

/-- C23: a message that can be read becomes a response exactly when the message header
names HBCI version 220 or 300; a header without version panics. -/
theorem C23_version {σ : Type} {other : Decoders σ} {raw : Bytes} {m : SegmentMap σ} {e : Extractor}
    (h : unmarshalMessage other raw = .ok (m, e)) (header : ReadHeader) :
    ((∃ d, newDecrypted other header raw = .ok d) ↔ header.hbciVersion = some 220 ∨ header.hbciVersion = some 300) ∧
    (newDecrypted other header raw = .panic ↔ header.hbciVersion = none) := by
  obtain ⟨ss, hs, _, h2, h3⟩ := (C65_reads other raw m).1 ⟨e, h⟩
  have hz := forall₂_zip h2
  have hm := h3 c!"HIRMS"
  rw [decodings_ack other .segment c!"HIRMS" (fun v => by simp [decoderFor])] at hm
  obtain ⟨as, hm1, _⟩ := decoded_acks (ps := version2 c!"HIRMS" ss hs) (fun p hp => hz p (List.mem_filter.1 hp).1) hm
  unfold newDecrypted
  simp only [h, Outcome.bind, hm1, segmentAcks_map]
  cases header.hbciVersion with
  | none => simp
  | some n =>
    simp only [supportedVersion, Option.some.injEq, reduceCtorEq, iff_false]
    by_cases h1 : n = 220
    · simp [h1]
    · by_cases h2 : n = 300
      · simp [h2]
      · simp [h1, h2]

/-- A message header for the example. -/
def sampleReadHeader : ReadHeader :=
  ⟨⟨c!"HNHBK", 1, 3, none⟩, some 512, some 300, some c!"4711", some 2, some (c!"4711", 2)⟩

/-- Non-vacuity of `C23_acknowledgements`: a second HIRMG and a HIRMS in version 3 are
dropped. -/
example : ((newDecrypted (σ := Unit) (fun _ _ => none) sampleReadHeader
      b!"HIRMG:3:2+0010::ok+3060::warn'HIRMS:4:2:5+0020:1:done:a:b'HIRMG:5:2+9999::lost'HIRMS:6:3:7+9010::lost'HIRMS:7:2+9040::no'").map'
      fun d => d.acknowledgements) =
    .ok [⟨.message, 10, [], c!"ok", [], ⟨c!"4711", 2⟩, 0⟩, ⟨.message, 3060, [], c!"warn", [], ⟨c!"4711", 2⟩, 0⟩,
      ⟨.segment, 20, c!"1", c!"done", [c!"a", c!"b"], ⟨[], 0⟩, 5⟩, ⟨.segment, 9040, [], c!"no", [], ⟨[], 0⟩, -1⟩] := by
  decide +kernel

/-! ## C67 and C68: supported segments, positions -/

theorem newDecrypted_read {σ : Type} {other : Decoders σ} {header : ReadHeader} {raw : Bytes} {d : Decrypted σ}
    (h : newDecrypted other header raw = .ok d) : ∃ m, unmarshalMessage other raw = .ok (m, d.extractor) := by
  unfold newDecrypted at h
  cases hu : unmarshalMessage other raw with
  | err => simp [hu, Outcome.bind] at h
  | panic => simp [hu, Outcome.bind] at h
  | ok u =>
    refine ⟨u.1, ?_⟩
    simp only [hu, Outcome.bind] at h
    cases hs : segmentAcks (u.1 c!"HIRMS") with
    | err => simp [hs] at h
    | panic => simp [hs] at h
    | ok sa =>
      cases hv : header.hbciVersion with
      | none => simp [hs, hv] at h
      | some n =>
        cases hw : supportedVersion n with
        | none => simp [hs, hv, hw] at h
        | some v =>
          simp only [hs, hv, hw, Outcome.ok.injEq] at h
          rw [← h]

theorem newDecrypted_segments {σ : Type} {other : Decoders σ} {header : ReadHeader} {raw : Bytes} {d : Decrypted σ}
    (h : newDecrypted other header raw = .ok d) :
    (newExtractor raw).extract.2 = .ok d.extractor.segments ∧ ∃ hs, List.Forall₂ Reads d.extractor.segments hs := by
  obtain ⟨m, hu⟩ := newDecrypted_read h
  have h3 := C65_extractor hu
  obtain ⟨ss, hs, h1, h2, _⟩ := (C65_reads other raw m).1 ⟨_, hu⟩
  rw [h1] at h3
  cases h3
  exact ⟨h1, hs, h2⟩

/-- C67: `SupportedSegments` of a response never panics and lists ID and version of
exactly the segments whose ID is longer than five bytes, in order of arrival. -/
theorem C67_supported {σ : Type} {other : Decoders σ} {header : ReadHeader} {raw : Bytes} {d : Decrypted σ}
    (h : newDecrypted other header raw = .ok d) :
    ∃ ss hs, (newExtractor raw).extract.2 = .ok ss ∧ List.Forall₂ Reads ss hs ∧
      d.supportedSegments = .ok ((hs.filter fun h => decide (5 < utf8Length h.id)).map fun h => (h.id, h.version)) := by
  obtain ⟨h1, hs, h2⟩ := newDecrypted_segments h
  refine ⟨_, hs, h1, h2, ?_⟩
  unfold Decrypted.supportedSegments
  clear h1 h
  revert h2
  generalize d.extractor.segments = ss
  intro h2
  induction h2 with
  | nil => rfl
  | @cons s h ss hs h4 _ ih =>
    unfold supportedLoop
    rw [reads_iff.2 h4]
    simp only [List.filter_cons, ih]
    by_cases h5 : utf8Length h.id ≤ 5
    · simp [h5, Nat.not_lt.2 h5]
    · simp [h5, Nat.lt_of_not_le h5, Outcome.map']

/-- C68: `SegmentPosition` returns the position in the header of the first segment
whose text begins with the ID, and -1 if there is none; it never panics. -/
theorem C68_position {σ : Type} {other : Decoders σ} {header : ReadHeader} {raw : Bytes} {d : Decrypted σ}
    (h : newDecrypted other header raw = .ok d) (id : Bytes) :
    ∃ ss, (newExtractor raw).extract.2 = .ok ss ∧
      (((∀ s ∈ ss, ¬ id <+: s) ∧ d.segmentPosition id = .ok (-1)) ∨
       ∃ before s after hd, ss = before ++ s :: after ∧ id <+: s ∧ (∀ x ∈ before, ¬ id <+: x) ∧ Reads s hd ∧
         d.segmentPosition id = .ok hd.position) := by
  obtain ⟨h1, hs, h2⟩ := newDecrypted_segments h
  refine ⟨_, h1, ?_⟩
  unfold Decrypted.segmentPosition
  cases hf : d.extractor.findSegment id with
  | none => exact Or.inl ⟨(C16_findSegment_none _ _).1 hf, rfl⟩
  | some s =>
    right
    obtain ⟨before, after, h3, h4, h5⟩ := (C16_findSegment _ _ _).1 hf
    obtain ⟨hd, hr⟩ : ∃ hd, Reads s hd := by
      rw [h3] at h2
      clear h3 h5 hf h1
      generalize hz : before ++ s :: after = ss at h2
      induction h2 generalizing before with
      | nil => simp at hz
      | cons h6 _ ih =>
        cases before with
        | nil =>
          obtain ⟨rfl, _⟩ := List.cons.inj hz
          exact ⟨_, h6⟩
        | cons b before => exact ih before (List.cons.inj hz).2
    have hne : s ≠ [] := by
      rintro rfl
      obtain ⟨f, r, h6, _⟩ := hr
      have : Segment.extractElements [] = .ok [] := by decide
      rw [this] at h6
      simp at h6
    exact ⟨before, s, after, hd, h3, h4, h5, hr, by simp [hne, reads_iff.2 hr]⟩

/-- Non-vacuity of `C67_supported` and `C68_position`: the position of HIKAZ is that of
the parameter segment HIKAZS, which comes first and begins with the ID. -/
example : ((newDecrypted (σ := Unit) (fun _ _ => none) sampleReadHeader
      b!"HIRMG:2:2+0010::ok'HIKAZS:3:5+1'HISALS:4:6+1'HIKAZ:5:5+1'").map' fun d =>
        (d.supportedSegments, d.segmentPosition b!"HIKAZ", d.segmentPosition b!"HIUPD")) =
    .ok (.ok [(c!"HIKAZS", 5), (c!"HISALS", 6)], .ok 3, .ok (-1)) := by
  decide +kernel

end Verif.Message

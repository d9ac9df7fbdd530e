import Verif.Segment.Lemmas

/-
Elements whose contents are carried faithfully by the wire format.
-/

namespace Verif.Segment

open GoLib Element Element.Spec Segment.Spec Verif.Token.Spec Token

/-- No byte `c` is cut off when the elements are joined with `c` and trimmed: the
last non-empty element does not end in `c`. -/
def NotCut (c : Byte) (es : List (Option DE)) : Prop :=
  ∀ ps out p, es.map DE.marshalOpt = ps.map .ok → DropTrailing ps out → out.getLast? = some p →
    p.getLast? ≠ some c

mutual
/-- Texts are without NUL and do not look like malformed numbers, fractions are
canonical, and no group cuts its last element. -/
def Sound : DE → Prop
  | .group _ es => SoundAll es ∧ NotCut 58 es
  | .array _ _ es => SoundAll es ∧ NotCut 58 es
  | .alnum v m => Harmless (.alnum v m)
  | .text v m => Harmless (.text v m)
  | .code v m s => Harmless (.code v m s)
  | .identification v m => Harmless (.identification v m)
  | .currency v m => Harmless (.currency v m)
  | .float v m => Harmless (.float v m)
  | .value v m => Harmless (.value v m)
  | .digit _ _ | .number _ _ | .dtaus _ _ | .binary _ _ | .boolean _ | .date _ | .virtualDate _ _
  | .time _ | .countryCode _ _ => True

/-- All elements of a list. -/
def SoundAll : List (Option DE) → Prop
  | [] => True
  | e :: r => SoundOpt e ∧ SoundAll r

/-- Absent elements are sound. -/
def SoundOpt : Option DE → Prop
  | none => True
  | some e => Sound e
end

theorem soundAll_iff {es : List (Option DE)} : SoundAll es ↔ ∀ e, some e ∈ es → Sound e := by
  induction es with
  | nil => simp [SoundAll]
  | cons e r ih =>
    rw [SoundAll, ih]
    cases e with
    | none => simp [SoundOpt]
    | some e =>
      simp only [SoundOpt, List.mem_cons, Option.some.injEq]
      constructor
      · rintro ⟨h1, h2⟩ x (rfl | hx)
        · exact h1
        · exact h2 x hx
      · intro h
        exact ⟨h e (Or.inl rfl), fun x hx => h x (Or.inr hx)⟩

theorem join_replicate_nil (c : Byte) (k : Nat) : trimRight c (join c (List.replicate k [])) = [] := by
  cases k with
  | zero => rfl
  | succ k =>
    have := join_trailing c [] [] k
    simp only [List.nil_append, List.append_nil] at this
    have e : ([[]] : List Bytes) ++ List.replicate k [] = List.replicate (k + 1) [] := by
      rw [List.replicate_succ]; rfl
    have e2 : pre c [] ++ List.replicate k c = List.replicate k c := by simp [pre]
    rw [e, e2] at this
    rw [this]
    simp [trimRight]

theorem all_nil_or (ps : List Bytes) : (∃ p ∈ ps, p ≠ []) ∨ ps = List.replicate ps.length [] := by
  by_cases h : ∃ p ∈ ps, p ≠ []
  · exact Or.inl h
  · right
    apply List.eq_replicate_of_mem
    intro b hb
    by_contra hb2
    exact h ⟨b, hb, hb2⟩

/-- A group's bytes: nothing, or its parts without the trailing empty ones. -/
theorem group_bytes {es : List (Option DE)} {ps : List Bytes} (hps : es.map DE.marshalOpt = ps.map .ok)
    (hc : NotCut 58 es) :
    (trimRight 58 (join 58 ps) = [] ∧ ∀ p ∈ ps, p = []) ∨
    ∃ init p k, p ≠ [] ∧ ps = init ++ [p] ++ List.replicate k [] ∧ p.getLast? ≠ some 58 ∧
      trimRight 58 (join 58 ps) = pre 58 init ++ p := by
  rcases all_nil_or ps with h | h
  · right
    obtain ⟨init, p, k, hp, he⟩ := dropTrailing_exists ps h
    have hd := (dropTrailing_iff hp he).2 rfl
    have hl := hc ps _ p hps hd (by simp)
    refine ⟨init, p, k, hp, he, hl, ?_⟩
    have ht := trimRight_of_last hl
    rw [he, trim_join (by rw [ht]; exact hp), ht]
  · left
    refine ⟨by rw [h, join_replicate_nil], fun p hp => ?_⟩
    rw [h] at hp
    exact (List.mem_replicate.1 hp).2

theorem field_of_group {es : List (Option DE)} {ps : List Bytes} (hps : es.map DE.marshalOpt = ps.map .ok)
    (hc : NotCut 58 es) (hf : ∀ p ∈ ps, Field p) : Field (trimRight 58 (join 58 ps)) := by
  rcases group_bytes hps hc with ⟨h, _⟩ | ⟨init, p, k, _, he, _, h⟩
  · rw [h]; exact .nil
  · rw [h]
    exact field_pre (fun q hq => hf q (by simp [he, hq])) (hf p (by simp [he]))

mutual
/-- Sound elements are fields on the wire. -/
theorem field_of_sound : (e : DE) → Sound e → ∀ p, e.marshal = .ok p → Field p
  | .group n es, h, p, hm => by
    rw [Sound] at h
    rw [DE.marshal] at hm
    cases ha : DE.marshalAll es with
    | err => rw [ha] at hm; simp at hm
    | panic => rw [ha] at hm; simp at hm
    | ok ps =>
      rw [ha] at hm
      simp at hm
      rw [← hm]
      exact field_of_group (marshalAll_ok.1 ha) h.2 (fields_of_sound es h.1 ps ha)
  | .array a b es, h, p, hm => by
    rw [Sound] at h
    rw [DE.marshal] at hm
    cases ha : DE.marshalAll es with
    | err => rw [ha] at hm; simp at hm
    | panic => rw [ha] at hm; simp at hm
    | ok ps =>
      rw [ha] at hm
      simp at hm
      rw [← hm]
      exact field_of_group (marshalAll_ok.1 ha) h.2 (fields_of_sound es h.1 ps ha)
  | .alnum v m, h, p, hm => field_of_part (C12_leaf (by rw [Sound] at h; exact h) hm)
  | .text v m, h, p, hm => field_of_part (C12_leaf (by rw [Sound] at h; exact h) hm)
  | .code v m s, h, p, hm => field_of_part (C12_leaf (by rw [Sound] at h; exact h) hm)
  | .identification v m, h, p, hm => field_of_part (C12_leaf (by rw [Sound] at h; exact h) hm)
  | .currency v m, h, p, hm => field_of_part (C12_leaf (by rw [Sound] at h; exact h) hm)
  | .float v m, h, p, hm => field_of_part (C12_leaf (by rw [Sound] at h; exact h) hm)
  | .value v m, h, p, hm => field_of_part (C12_leaf (by rw [Sound] at h; exact h) hm)
  | .digit v m, _, p, hm => field_of_part (C12_leaf (e := .digit v m) trivial hm)
  | .number v m, _, p, hm => field_of_part (C12_leaf (e := .number v m) trivial hm)
  | .dtaus v m, _, p, hm => field_of_part (C12_leaf (e := .dtaus v m) trivial hm)
  | .binary v m, _, p, hm => field_of_part (C12_leaf (e := .binary v m) trivial hm)
  | .boolean v, _, p, hm => field_of_part (C12_leaf (e := .boolean v) trivial hm)
  | .date t, _, p, hm => field_of_part (C12_leaf (e := .date t) trivial hm)
  | .virtualDate v m, _, p, hm => field_of_part (C12_leaf (e := .virtualDate v m) trivial hm)
  | .time t, _, p, hm => field_of_part (C12_leaf (e := .time t) trivial hm)
  | .countryCode v m, _, p, hm => field_of_part (C12_leaf (e := .countryCode v m) trivial hm)

/-- The same for lists of elements. -/
theorem fields_of_sound : (es : List (Option DE)) → SoundAll es → ∀ ps, DE.marshalAll es = .ok ps →
    ∀ p ∈ ps, Field p
  | [], _, ps, hm => by rw [DE.marshalAll] at hm; cases hm; simp
  | none :: r, h, ps, hm => by
    rw [SoundAll] at h
    rw [DE.marshalAll, DE.marshalOpt] at hm
    cases ha : DE.marshalAll r with
    | err => rw [ha] at hm; simp at hm
    | panic => rw [ha] at hm; simp at hm
    | ok qs =>
      rw [ha] at hm
      simp at hm
      rw [← hm]
      intro p hp
      simp only [List.mem_cons] at hp
      rcases hp with rfl | hp
      · exact .nil
      · exact fields_of_sound r h.2 qs ha p hp
  | some e :: r, h, ps, hm => by
    rw [SoundAll, SoundOpt] at h
    rw [DE.marshalAll, DE.marshalOpt] at hm
    cases he : e.marshal with
    | err => rw [he] at hm; simp at hm
    | panic => rw [he] at hm; simp at hm
    | ok b =>
      rw [he] at hm
      simp only [Outcome.bind] at hm
      cases ha : DE.marshalAll r with
      | err => rw [ha] at hm; simp at hm
      | panic => rw [ha] at hm; simp at hm
      | ok qs =>
        rw [ha] at hm
        simp at hm
        rw [← hm]
        intro p hp
        simp only [List.mem_cons] at hp
        rcases hp with rfl | hp
        · exact field_of_sound e h.1 _ he
        · exact fields_of_sound r h.2 qs ha p hp
end

/-! ## Segment headers -/

/-- The bytes of a header. -/
def headerBytes (h : Header) : Bytes :=
  enc (escape h.id) ++ 58 :: itoa h.position ++ 58 :: itoa h.version ++
    (match h.ref with | none => [] | some r => 58 :: itoa r)

theorem itoa_not_colon (n : Int) : (itoa n).getLast? ≠ some 58 := by
  intro h
  have hm := List.mem_of_getLast? h
  unfold itoa at hm
  split at hm
  · simp only [List.mem_cons] at hm
    rcases hm with h | h
    · simp at h
    · have := (natDec_digits _).2 58 h; simp [Digit] at this
  · have := (natDec_digits _).2 58 hm; simp [Digit] at this

theorem itoa_ne_nil (n : Int) : itoa n ≠ [] := value_ne_nil (itoa_value n)

theorem header_parts (h : Header) (hl : Latin1 h.id) :
    [some (DE.alnum h.id 6), some (.number h.position 3), some (.number h.version 3),
      h.ref.map fun r => .number r 3].map DE.marshalOpt =
    [enc (escape h.id), itoa h.position, itoa h.version, (h.ref.map itoa).getD []].map .ok := by
  have : marshalText h.id = .ok (enc (escape h.id)) := toISO_ok (escape_latin1.2 hl)
  cases hr : h.ref with
  | none => simp [DE.marshalOpt, this, DE.marshal, marshalNumber]
  | some r => simp [DE.marshalOpt, this, DE.marshal, marshalNumber]

theorem header_marshal (h : Header) (hl : Latin1 h.id) : h.marshal = .ok (headerBytes h) := by
  unfold Header.marshal Header.de
  rw [DE.marshal, marshalAll_ok.2 (header_parts h hl)]
  simp only [Outcome.map', Outcome.ok.injEq]
  unfold headerBytes
  cases hr : h.ref with
  | none =>
    have := trim_join (c := 58) (out := [enc (escape h.id), itoa h.position]) (p := itoa h.version) (k := 1)
      (by rw [trimRight_of_last (itoa_not_colon _)]; exact itoa_ne_nil _)
    rw [trimRight_of_last (itoa_not_colon _)] at this
    simpa [pre] using this
  | some r =>
    have := trim_join (c := 58) (out := [enc (escape h.id), itoa h.position, itoa h.version]) (p := itoa r) (k := 0)
      (by rw [trimRight_of_last (itoa_not_colon _)]; exact itoa_ne_nil _)
    rw [trimRight_of_last (itoa_not_colon _)] at this
    simpa [pre] using this

theorem header_latin1 {h : Header} {b : Bytes} (hm : h.marshal = .ok b) : Latin1 h.id := by
  by_contra hl
  unfold Header.marshal Header.de at hm
  rw [DE.marshal, DE.marshalAll, DE.marshalOpt] at hm
  have : DE.marshal (.alnum h.id 6) = .panic := by
    rw [DE.marshal]; exact toISO_panic fun hx => hl (escape_latin1.1 hx)
  rw [this] at hm
  simp at hm

theorem header_marshal_eq {h : Header} {b : Bytes} (hm : h.marshal = .ok b) : b = headerBytes h := by
  rw [header_marshal h (header_latin1 hm)] at hm
  simpa using hm.symm

theorem headerBytes_ne_nil (h : Header) : headerBytes h ≠ [] := by simp [headerBytes]

theorem headerBytes_last (h : Header) : (headerBytes h).getLast? ≠ some 43 ∧ (headerBytes h).getLast? ≠ some 58 := by
  have key : ∀ (x : Bytes) (n : Int), (x ++ itoa n).getLast? ≠ some 43 ∧ (x ++ itoa n).getLast? ≠ some 58 := by
    intro x n
    have h43 : (itoa n).getLast? ≠ some 43 := by
      intro h
      have hm := List.mem_of_getLast? h
      unfold itoa at hm
      split at hm
      · simp only [List.mem_cons] at hm
        rcases hm with h | h
        · simp at h
        · have := (natDec_digits _).2 43 h; simp [Digit] at this
      · have := (natDec_digits _).2 43 hm; simp [Digit] at this
    have h58 := itoa_not_colon n
    have hne := itoa_ne_nil n
    rw [List.getLast?_append]
    cases hl : (itoa n).getLast? with
    | none => simp at hl; exact absurd hl hne
    | some d => rw [hl] at h43 h58; exact ⟨by simpa using h43, by simpa using h58⟩
  unfold headerBytes
  cases h.ref with
  | none =>
    have := key (enc (escape h.id) ++ 58 :: itoa h.position ++ [58]) h.version
    simpa using this
  | some r =>
    have := key (enc (escape h.id) ++ 58 :: itoa h.position ++ 58 :: itoa h.version ++ [58]) r
    simpa using this

/-- Conditions on the segment ID under which the header is carried faithfully. -/
def HarmlessId (id : Str) : Prop := '\x00' ∉ id ∧ ¬ LikeMalformedFloat id

theorem header_field {h : Header} (hl : Latin1 h.id) (hid : HarmlessId h.id) : Field (headerBytes h) := by
  have hp : Field (enc (escape h.id)) := by
    by_cases hn : h.id = []
    · rw [hn]; exact .nil
    · exact .one ((text_value_iff hl).2 ⟨hn, hid⟩)
  unfold headerBytes
  cases h.ref with
  | none =>
    have := field_join hp (field_join (.one (itoa_value h.position)) (.one (itoa_value h.version)))
    simpa using this
  | some r =>
    have := field_join hp (field_join (.one (itoa_value h.position))
      (field_join (.one (itoa_value h.version)) (.one (itoa_value r))))
    simpa using this

end Verif.Segment

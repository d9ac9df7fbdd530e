import Verif.Generator.Flags
import Verif.Element.Lemmas
import Verif.Bank.GroupWire
import Mathlib.Data.List.Forall2

/-
C128: the flag `-segment_versions`.
-/

namespace Verif.Generator

open GoLib Element Element.Spec Verif.Token.Spec

/-! ## Specification -/

/-- Text without quotes, backslashes and line ends, which stands for itself between double quotes. -/
def PlainText (u : Bytes) : Prop := (34 : Byte) ∉ u ∧ (92 : Byte) ∉ u ∧ (10 : Byte) ∉ u

/-- The non-empty pieces between the commas of a text. -/
inductive Pieces : Bytes → List Bytes → Prop where
  | done : Pieces [] []
  | comma {u : Bytes} {ps : List Bytes} : Pieces u ps → Pieces (44 :: u) ps
  | last {p : Bytes} : p ≠ [] → (44 : Byte) ∉ p → Pieces p [p]
  | piece {p u : Bytes} {ps : List Bytes} : p ≠ [] → (44 : Byte) ∉ p → Pieces u ps → Pieces (p ++ 44 :: u) (p :: ps)

/-- A piece names a segment: `name:version`, `name:version:interface`, or `name:version:` and two or more further texts, which
do not count. -/
inductive Names : Bytes → SegmentId → Prop where
  | two {name v : Bytes} {n : Int} : (58 : Byte) ∉ name → Decimal v n → IsInt n → Names (name ++ 58 :: v) ⟨name, n, b!"Segment"⟩
  | three {name v i : Bytes} {n : Int} : (58 : Byte) ∉ name → Decimal v n → IsInt n → (58 : Byte) ∉ i →
      Names (name ++ 58 :: (v ++ 58 :: i)) ⟨name, n, i⟩
  | more {name v i : Bytes} {n : Int} : (58 : Byte) ∉ name → Decimal v n → IsInt n → (58 : Byte) ∈ i →
      Names (name ++ 58 :: (v ++ 58 :: i)) ⟨name, n, b!"Segment"⟩

/-! ## Lemmas -/

theorem split_ne (c : Byte) (b : Bytes) : split c b ≠ [] := by
  cases b with
  | nil => simp [split]
  | cons a r =>
    rw [split]
    split
    · simp
    · split <;> simp

theorem split_none {c : Byte} : ∀ {p : Bytes}, c ∉ p → split c p = [p]
  | [], _ => rfl
  | a :: p, h => by
    have h1 : (a == c) = false := by simp only [beq_eq_false_iff_ne]; rintro rfl; simp at h
    rw [split, split_none (p := p) (fun hp => h (List.mem_cons_of_mem _ hp))]
    simp [h1]

theorem split_first {c : Byte} : ∀ {p : Bytes} (r : Bytes), c ∉ p → split c (p ++ c :: r) = p :: split c r
  | [], r, _ => by simp [split]
  | a :: p, r, h => by
    have h1 : (a == c) = false := by simp only [beq_eq_false_iff_ne]; rintro rfl; simp at h
    rw [List.cons_append, split, split_first (p := p) r (fun hp => h (List.mem_cons_of_mem _ hp))]
    simp [h1]

/-- A text has no separator, or a first one. -/
theorem cut_at (c : Byte) (b : Bytes) : c ∉ b ∨ ∃ p r, b = p ++ c :: r ∧ c ∉ p := by
  by_cases h : c ∈ b
  · obtain ⟨p, r, rfl, hp⟩ := List.eq_append_cons_of_mem h
    exact .inr ⟨p, r, rfl, hp⟩
  · exact .inl h

theorem fields_pieces : ∀ (n : Nat) (u : Bytes), u.length ≤ n → Pieces u (fieldsComma u)
  | _, [], _ => .done
  | 0, _ :: _, h => by simp at h
  | n + 1, a :: r, h => by
    rcases cut_at 44 (a :: r) with hc | ⟨p, q, hp, hc⟩
    · rw [fieldsComma, split_none hc]
      exact .last (by simp) hc
    · have hl : q.length ≤ n := by
        have := congrArg List.length hp
        simp only [List.length_cons, List.length_append] at this h
        omega
      have ih := fields_pieces n q hl
      rw [hp, fieldsComma, split_first _ hc]
      cases p with
      | nil => simpa [fieldsComma] using Pieces.comma ih
      | cons x xs => simpa [fieldsComma] using Pieces.piece (by simp) hc ih

theorem fields_iff (u : Bytes) (ps : List Bytes) : fieldsComma u = ps ↔ Pieces u ps := by
  constructor
  · rintro rfl
    exact fields_pieces _ u (Nat.le_refl _)
  · intro h
    induction h with
    | done => rfl
    | comma _ ih => simpa [fieldsComma, split] using ih
    | last hn hc => simp [fieldsComma, split_none hc, hn]
    | piece hn hc _ ih => rw [fieldsComma, split_first _ hc, List.filter_cons_of_pos (by simpa using hn)]; congr 1

theorem decimal_no_colon {v : Bytes} {n : Int} (h : Decimal v n) : (58 : Byte) ∉ v := by
  have key : ∀ ds, DigitString ds → (58 : Byte) ∉ ds := by
    intro ds hd hm
    have := hd.2 58 hm
    simp [Digit] at this
  obtain ⟨ds, hd, h⟩ := h
  rcases h with ⟨rfl | rfl, _⟩ | ⟨rfl, _⟩
  · exact key _ hd
  · simpa using key _ hd
  · simpa using key _ hd

/-- **C128** A piece is taken exactly if it names a segment. -/
theorem C128_piece (seg : Bytes) (id : SegmentId) : readVersion seg = some id ↔ Names seg id := by
  constructor
  · intro h
    unfold readVersion at h
    rcases cut_at 58 seg with hc | ⟨name, r, rfl, hc⟩
    · rw [split_none hc] at h
      simp at h
    · rw [split_first _ hc] at h
      rcases cut_at 58 r with hv | ⟨v, i, rfl, hv⟩
      · rw [split_none hv] at h
        obtain ⟨n, hn, rfl⟩ := Option.map_eq_some_iff.1 h
        obtain ⟨h1, h2⟩ := decimal_iff.1 hn
        exact .two hc h1 h2
      · rw [split_first _ hv] at h
        obtain ⟨n, hn, rfl⟩ := Option.map_eq_some_iff.1 h
        obtain ⟨h1, h2⟩ := decimal_iff.1 hn
        rcases cut_at 58 i with hi | ⟨x, y, rfl, hi⟩
        · rw [split_none hi]
          exact .three hc h1 h2 hi
        · rw [split_first _ hi]
          have hs := split_ne 58 y
          cases hy : split 58 y with
          | nil => exact absurd hy hs
          | cons _ _ => exact .more hc h1 h2 (by simp)
  · intro h
    cases h with
    | two hc hd hi =>
      unfold readVersion
      rw [split_first _ hc, split_none (decimal_no_colon hd)]
      simp [decimal_iff.2 ⟨hd, hi⟩]
    | three hc hd hi hn =>
      unfold readVersion
      rw [split_first _ hc, split_first _ (decimal_no_colon hd), split_none hn]
      simp [decimal_iff.2 ⟨hd, hi⟩]
    | more hc hd hi hm =>
      unfold readVersion
      obtain ⟨x, y, rfl, hx⟩ := List.eq_append_cons_of_mem hm
      rw [split_first _ hc, split_first _ (decimal_no_colon hd), split_first _ hx]
      have hs := split_ne 58 y
      cases hy : split 58 y with
      | nil => exact absurd hy hs
      | cons _ _ => simp [decimal_iff.2 ⟨hd, hi⟩]

theorem versions_ok : ∀ (ps : List Bytes) (s ids : List SegmentId),
    readVersions s ps = (s ++ ids, false) ↔ List.Forall₂ Names ps ids
  | [], s, ids => by
    cases ids with
    | nil => simp [readVersions]
    | cons a l =>
      simp only [readVersions, Prod.mk.injEq, and_true]
      refine ⟨fun h => ?_, fun h => by cases h⟩
      have := congrArg List.length h
      simp at this
  | p :: ps, s, ids => by
    rw [readVersions]
    cases hp : readVersion p with
    | none =>
      simp only [Prod.mk.injEq, Bool.true_eq_false, and_false, false_iff]
      intro h
      cases h with
      | cons h1 _ => rw [(C128_piece _ _).2 h1] at hp; cases hp
    | some id =>
      simp only
      cases ids with
      | nil =>
        refine ⟨fun h => ?_, fun h => by cases h⟩
        have hk : ∀ (ps : List Bytes) (s : List SegmentId), s.length ≤ (readVersions s ps).1.length := by
          intro ps
          induction ps with
          | nil => intro s; simp [readVersions]
          | cons q qs ih =>
            intro s
            rw [readVersions]
            cases readVersion q with
            | none => simp
            | some i => exact Nat.le_trans (by simp) (ih (s ++ [i]))
        have := hk ps (s ++ [id])
        rw [h] at this
        simp at this
      | cons a l =>
        have e : s ++ a :: l = (s ++ [a]) ++ l := by simp
        constructor
        · intro h
          have hpre : ∀ (ps : List Bytes) (s : List SegmentId), s <+: (readVersions s ps).1 := by
            intro ps
            induction ps with
            | nil => intro s; simp [readVersions]
            | cons q qs ih =>
              intro s
              rw [readVersions]
              cases readVersion q with
              | none => simp
              | some i => exact List.IsPrefix.trans (List.prefix_append _ _) (ih (s ++ [i]))
          have h1 := hpre ps (s ++ [id])
          rw [h] at h1
          have h2 : id = a := by
            obtain ⟨t, ht⟩ := h1
            simp only [List.append_assoc, List.append_cancel_left_eq] at ht
            simpa using congrArg List.head? ht
          subst h2
          rw [e] at h
          exact .cons ((C128_piece _ _).1 hp) ((versions_ok ps _ _).1 h)
        · intro h
          cases h with
          | cons h1 h2 =>
            rw [(C128_piece _ _).2 h1] at hp
            cases hp
            rw [e]
            exact (versions_ok ps _ _).2 h2

theorem unquote_plain (rest : Bytes → Option Bytes) {u : Bytes} (h : PlainText u) : Domain.unquote rest (b!"\"" ++ u ++ b!"\"") = some u := by
  have e : b!"\"" ++ u ++ b!"\"" = 34 :: (u ++ [34]) := by simp
  rw [e, Domain.unquote]
  have hall : (u ++ [34]).dropLast.all (fun b => b != 34 && b != 92 && b != 10) = true := by
    rw [List.dropLast_concat, List.all_eq_true]
    intro b hb
    simp only [Bool.and_eq_true, bne_iff_ne]
    exact ⟨⟨fun e => h.1 (e ▸ hb), fun e => h.2.1 (e ▸ hb)⟩, fun e => h.2.2 (e ▸ hb)⟩
  rw [if_pos ⟨by simp, hall⟩, List.dropLast_concat]

/-- **C128** A quoted text is taken exactly if each of its pieces names a segment; these are added in order. -/
theorem C128_set (rest : Bytes → Option Bytes) {u : Bytes} (h : PlainText u) (s ids : List SegmentId) :
    setVersions rest s (b!"\"" ++ u ++ b!"\"") = (s ++ ids, false) ↔ ∃ ps, Pieces u ps ∧ List.Forall₂ Names ps ids := by
  unfold setVersions
  rw [unquote_plain rest h]
  simp only [versions_ok]
  constructor
  · exact fun hf => ⟨_, (fields_iff _ _).1 rfl, hf⟩
  · rintro ⟨ps, h1, h2⟩
    rw [(fields_iff _ _).2 h1]
    exact h2

/-- **C128** An error leaves what the pieces before the first bad one named. -/
theorem C128_error (rest : Bytes → Option Bytes) {u : Bytes} (h : PlainText u) {s t : List SegmentId}
    (he : setVersions rest s (b!"\"" ++ u ++ b!"\"") = (t, true)) : ∃ good bad more ids, Pieces u (good ++ bad :: more) ∧
      List.Forall₂ Names good ids ∧ (∀ id, ¬ Names bad id) ∧ t = s ++ ids := by
  unfold setVersions at he
  rw [unquote_plain rest h] at he
  simp only at he
  have key : ∀ (ps : List Bytes) (s : List SegmentId), readVersions s ps = (t, true) → ∃ good bad more ids, ps = good ++ bad :: more ∧
      List.Forall₂ Names good ids ∧ (∀ id, ¬ Names bad id) ∧ t = s ++ ids := by
    intro ps
    induction ps with
    | nil => intro s h; simp [readVersions] at h
    | cons p ps ih =>
      intro s h
      rw [readVersions] at h
      cases hp : readVersion p with
      | none =>
        rw [hp] at h
        simp only [Prod.mk.injEq, and_true] at h
        refine ⟨[], p, ps, [], rfl, .nil, fun id hn => ?_, by simp [h]⟩
        rw [(C128_piece _ _).2 hn] at hp
        cases hp
      | some id =>
        rw [hp] at h
        obtain ⟨good, bad, more, ids, h1, h2, h3, h4⟩ := ih _ h
        exact ⟨p :: good, bad, more, id :: ids, by rw [h1]; rfl, .cons ((C128_piece _ _).1 hp) h2, h3, by simp [h4]⟩
  obtain ⟨good, bad, more, ids, h1, h2, h3, h4⟩ := key _ _ he
  exact ⟨good, bad, more, ids, (fields_iff _ _).1 h1, h2, h3, h4⟩

/-- A name that can stand in the flag. -/
def Word (w : Bytes) : Prop := (44 : Byte) ∉ w ∧ (58 : Byte) ∉ w ∧ PlainText w

/-- The flag as one writes it: `name:version:interface`, separated by commas, in double quotes. -/
def written (ids : List SegmentId) : Bytes :=
  b!"\"" ++ join 44 (ids.map fun v => v.name ++ b!":" ++ itoa v.version ++ b!":" ++ v.interface) ++ b!"\""

theorem decimal_itoa {n : Int} (h : IsInt n) : Decimal (itoa n) n := (decimal_iff.1 (atoi_itoa n h.1 h.2)).1

theorem word_piece {v : SegmentId} (h1 : Word v.name) (h2 : Word v.interface) :
    PlainText (v.name ++ b!":" ++ itoa v.version ++ b!":" ++ v.interface) ∧
    (44 : Byte) ∉ v.name ++ b!":" ++ itoa v.version ++ b!":" ++ v.interface := by
  have key : ∀ c : Byte, c ≠ 58 → ¬ Digit c → c ≠ 45 → c ∉ v.name → c ∉ v.interface →
      c ∉ v.name ++ b!":" ++ itoa v.version ++ b!":" ++ v.interface := by
    intro c h3 h4 h5 h6 h7 hm
    simp only [List.mem_append, List.mem_singleton] at hm
    rcases hm with (((h | h) | h) | h) | h
    · exact h6 h
    · exact h3 h
    · exact Bank.itoa_no h4 h5 h
    · exact h3 h
    · exact h7 h
  exact ⟨⟨key _ (by decide) (by unfold Digit; decide) (by decide) h1.2.2.1 h2.2.2.1,
    key _ (by decide) (by unfold Digit; decide) (by decide) h1.2.2.2.1 h2.2.2.2.1,
    key _ (by decide) (by unfold Digit; decide) (by decide) h1.2.2.2.2 h2.2.2.2.2⟩,
    key _ (by decide) (by unfold Digit; decide) (by decide) h1.1 h2.1⟩

/-- **C128** Any list of segments can be written into the flag and is read back. -/
theorem C128_roundtrip (rest : Bytes → Option Bytes) (s ids : List SegmentId)
    (h : ∀ v ∈ ids, Word v.name ∧ Word v.interface ∧ IsInt v.version) : setVersions rest s (written ids) = (s ++ ids, false) := by
  have hp : PlainText (join 44 (ids.map fun v => v.name ++ b!":" ++ itoa v.version ++ b!":" ++ v.interface)) ∧
      Pieces (join 44 (ids.map fun v => v.name ++ b!":" ++ itoa v.version ++ b!":" ++ v.interface))
        (ids.map fun v => v.name ++ b!":" ++ itoa v.version ++ b!":" ++ v.interface) := by
    induction ids with
    | nil => exact ⟨by simp [join, PlainText], .done⟩
    | cons v ids ih =>
      obtain ⟨h1, h2, _⟩ := h v (by simp)
      obtain ⟨w1, w2⟩ := word_piece h1 h2
      obtain ⟨i1, i2⟩ := ih fun x hx => h x (List.mem_cons_of_mem _ hx)
      cases ids with
      | nil => exact ⟨w1, Pieces.last (p := v.name ++ b!":" ++ itoa v.version ++ b!":" ++ v.interface) (by simp) w2⟩
      | cons x xs =>
        refine ⟨?_, .piece (by simp) w2 i2⟩
        have key : ∀ c : Byte, c ≠ 44 → c ∉ v.name ++ b!":" ++ itoa v.version ++ b!":" ++ v.interface →
            c ∉ join 44 ((x :: xs).map fun v => v.name ++ b!":" ++ itoa v.version ++ b!":" ++ v.interface) →
            c ∉ join 44 ((v :: x :: xs).map fun v => v.name ++ b!":" ++ itoa v.version ++ b!":" ++ v.interface) := by
          intro c h1 h2 h3 hm
          rcases List.mem_append.1 (show c ∈ (v.name ++ b!":" ++ itoa v.version ++ b!":" ++ v.interface) ++ 44 ::
            join 44 ((x :: xs).map fun v => v.name ++ b!":" ++ itoa v.version ++ b!":" ++ v.interface) from hm) with h | h
          · exact h2 h
          · rcases List.mem_cons.1 h with h | h
            · exact h1 h
            · exact h3 h
        exact ⟨key _ (by decide) w1.1 i1.1, key _ (by decide) w1.2.1 i1.2.1, key _ (by decide) w1.2.2 i1.2.2⟩
  refine (C128_set rest hp.1 s ids).2 ⟨_, hp.2, ?_⟩
  clear hp
  induction ids with
  | nil => exact .nil
  | cons v ids ih =>
    obtain ⟨h1, h2, h3⟩ := h v (by simp)
    refine .cons ?_ (ih fun x hx => h x (List.mem_cons_of_mem _ hx))
    have := Names.three h1.2.1 (decimal_itoa h3) h3 h2.2.1
    simpa using this

/-- **C128** What `String` prints is not the flag: of two or more segments only the first is read back, and without its interface. -/
theorem C128_string (rest : Bytes → Option Bytes) {a b : SegmentId} {ids : List SegmentId}
    (h : ∀ v ∈ a :: b :: ids, Word v.name ∧ Word v.interface ∧ IsInt v.version) :
    setVersions rest [] (b!"\"" ++ showVersions (a :: b :: ids) ++ b!"\"") = ([⟨a.name, a.version, b!"Segment"⟩], false) := by
  have hw : ∀ l : List SegmentId, (∀ v ∈ l, Word v.name ∧ Word v.interface ∧ IsInt v.version) →
      PlainText (showVersions l) ∧ (44 : Byte) ∉ showVersions l := by
    intro l hl
    have key : ∀ c : Byte, (∀ v ∈ l, c ∉ v.name ++ b!":" ++ itoa v.version ++ b!":" ++ v.interface) → c ∉ showVersions l := by
      intro c hc hm
      obtain ⟨v, hv, hm⟩ := List.mem_flatMap.1 hm
      exact hc v hv (by simpa using hm)
    exact ⟨⟨key _ fun v hv => (word_piece (hl v hv).1 (hl v hv).2.1).1.1, key _ fun v hv => (word_piece (hl v hv).1 (hl v hv).2.1).1.2.1,
      key _ fun v hv => (word_piece (hl v hv).1 (hl v hv).2.1).1.2.2⟩, key _ fun v hv => (word_piece (hl v hv).1 (hl v hv).2.1).2⟩
  obtain ⟨w1, w2⟩ := hw _ h
  obtain ⟨h1, h2, h3⟩ := h a (by simp)
  refine (C128_set rest w1 [] _).2 ⟨[showVersions (a :: b :: ids)], .last (by simp [showVersions]) w2, .cons ?_ .nil⟩
  have := Names.more (i := a.interface ++ showVersions (b :: ids)) h1.2.1 (decimal_itoa h3) h3 (by simp [showVersions])
  simpa [showVersions] using this

/-! ## Examples -/

/-- /repo/segment/sync.go:90. -/
example (rest : Bytes → Option Bytes) :
    setVersions rest [] b!"\"SynchronisationResponseSegmentV3:3,SynchronisationResponseSegmentV4:4\"" =
      ([⟨b!"SynchronisationResponseSegmentV3", 3, b!"Segment"⟩, ⟨b!"SynchronisationResponseSegmentV4", 4, b!"Segment"⟩], false) := by
  refine (C128_set rest (u := b!"SynchronisationResponseSegmentV3:3,SynchronisationResponseSegmentV4:4") (by simp [PlainText]) [] _).2
    ⟨_, (fields_iff _ _).1 rfl, .cons ((C128_piece _ _).1 (by decide)) (.cons ((C128_piece _ _).1 (by decide)) .nil)⟩

example (rest : Bytes → Option Bytes) : setVersions rest [] (written [⟨b!"A", 3, b!"ClientSegment"⟩, ⟨b!"B", 4, b!"Segment"⟩]) =
    ([⟨b!"A", 3, b!"ClientSegment"⟩, ⟨b!"B", 4, b!"Segment"⟩], false) := by
  refine C128_roundtrip rest [] _ fun v hv => ?_
  simp only [List.mem_cons, List.not_mem_nil, or_false] at hv
  rcases hv with rfl | rfl <;> simp [Word, PlainText, IsInt]

-- Four parts: the interface is dropped.  A bad piece: the segment before it stays.
example (rest : Bytes → Option Bytes) : setVersions rest [] b!"\"A:3:B:C\"" = ([⟨b!"A", 3, b!"Segment"⟩], false) ∧
    setVersions rest [] b!"\"A:3,B\"" = ([⟨b!"A", 3, b!"Segment"⟩], true) := ⟨rfl, rfl⟩

example (rest : Bytes → Option Bytes) : setVersions rest [] (b!"\"" ++ showVersions [⟨b!"A", 3, b!"X"⟩, ⟨b!"B", 4, b!"Y"⟩] ++ b!"\"") =
    ([⟨b!"A", 3, b!"Segment"⟩], false) := by
  refine C128_string rest fun v hv => ?_
  simp only [List.mem_cons, List.not_mem_nil, or_false] at hv
  rcases hv with rfl | rfl <;> simp [Word, PlainText, IsInt]

end Verif.Generator

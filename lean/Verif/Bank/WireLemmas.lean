import Verif.Bank.Segments
import Verif.Segment.Props
import Verif.Element.GroupsProps

/-
Reading back segments whose fields were written by the library's own elements.
-/

namespace Verif.Bank

open GoLib Element Element.Spec Segment Segment.Spec Message Verif.Token.Spec

/-- The bytes `m` are the segment `s` as the library writes it, and no text of it is cut or
confuses the lexer. -/
structure Written (s : Seg) (m : Bytes) : Prop where
  marshal : s.marshal = .ok m
  id : HarmlessId s.header.id ∧ '+' ∉ s.header.id ∧ '\'' ∉ s.header.id
  position : IsInt s.header.position
  version : IsInt s.header.version
  ref : ∀ r, s.header.ref = some r → IsInt r
  sound : ∀ e, some e ∈ s.elements → Sound e
  notCut : NotCut 43 s.elements
  size : m.length < 2 ^ 62

/-- Element `e` of a segment, when present on the wire, is read by `f`; the field holds `v`. -/
def Carries {α : Type} (e : Option DE) (f : Bytes → Outcome α) (v : Option α) : Prop :=
  ∀ p, DE.marshalOpt e = .ok p → p.length < 2 ^ 62 → field [p] 0 f = .ok v

theorem field_drop {α : Type} {l out : List Bytes} (h : DropTrailing l out) (i : Nat) (f : Bytes → Outcome α) :
    field out i f = field l i f := by
  obtain ⟨k, rfl, _⟩ := h
  unfold field
  rcases Nat.lt_or_ge i out.length with hi | hi
  · rw [List.getElem?_append_left hi]
  · rw [List.getElem?_append_right hi, List.getElem?_eq_none hi]
    cases hx : (List.replicate k ([] : Bytes))[i - out.length]? with
    | none => rfl
    | some b =>
      have := List.mem_of_getElem? hx
      rw [List.eq_of_mem_replicate this]
      rfl

theorem lastField_drop {α : Type} {l out : List Bytes} (h : DropTrailing l out) {i : Nat} (hi : l.length ≤ i + 1)
    (f : Bytes → Outcome α) : lastField out i f = field l i f := by
  rw [← field_drop h]
  unfold lastField field
  cases hx : out[i]? with
  | none => rfl
  | some b =>
    have hlen : i < out.length := (List.getElem?_eq_some_iff.1 hx).1
    obtain ⟨k, hl, _⟩ := h
    have h2 : out.length ≤ i + 1 := by
      rw [hl] at hi; simp at hi; omega
    have : out.drop i = [b] := by
      rw [List.drop_eq_getElem_cons hlen, List.drop_eq_nil_of_le h2]
      have := (List.getElem?_eq_some_iff.1 hx).2
      rw [this]
    rw [this]
    rfl

/-- What the generated unmarshalers see of a segment the library has written. -/
theorem generated_written {s : Seg} {m : Bytes} (h : Written s m) :
    ∃ hb ps out, s.elements.map DE.marshalOpt = ps.map .ok ∧ DropTrailing (hb :: ps) out ∧ (∀ p ∈ ps, p.length < 2 ^ 62) ∧
      ∀ (α : Type) (k : Header → List Bytes → Outcome α), generated m k = k s.header out := by
  obtain ⟨hb, ps, init, p, h1, h2, h3, h4, h5, rfl⟩ := segment_wire h.marshal h.id.1 h.sound h.notCut
  have hsz := h.size
  simp only [List.length_append, List.length_cons, List.length_nil] at hsz
  have hx := extract_segment (init := init) (p := p) (fun f hf => h4 f (by simp [hf])) (h4 p (by simp)) h5
    (by simp only [List.length_append]; omega)
  have hne : hb ≠ [] := by rw [header_marshal_eq h1]; exact headerBytes_ne_nil _
  have hlen : ∀ q ∈ init ++ [p], q.length ≤ (pre 43 init).length + p.length := by
    intro q hq
    rcases List.mem_append.1 hq with hq1 | hq1
    · have : q.length ≤ (pre 43 init).length := by
        clear hx h4 h3 hsz h hq
        induction init with
        | nil => simp at hq1
        | cons a init ih =>
          rw [pre_cons]
          simp only [List.length_append, List.length_cons]
          rcases List.mem_cons.1 hq1 with rfl | hq1
          · omega
          · have := ih hq1; omega
      omega
    · rw [List.mem_singleton.1 hq1]; omega
  obtain ⟨k, he, _⟩ := id h3
  have hhd : ∃ tl, init ++ [p] = hb :: tl := by
    cases init with
    | nil =>
      simp only [List.nil_append, List.singleton_append, List.cons.injEq] at he
      exact ⟨[], by simp [he.1]⟩
    | cons a init =>
      simp only [List.cons_append, List.cons.injEq] at he
      exact ⟨init ++ [p], by simp [he.1]⟩
  obtain ⟨tl, htl⟩ := hhd
  have hhb : hb.length + 2 < 2 ^ 63 := by
    have := hlen hb (by rw [htl]; simp)
    omega
  refine ⟨hb, ps, init ++ [p], h2, h3, ?_, ?_⟩
  · intro q hq
    have : q ∈ hb :: ps := by simp [hq]
    rw [he] at this
    rcases List.mem_append.1 this with hq' | hq'
    · have := hlen q hq'; omega
    · rw [List.eq_of_mem_replicate hq']; simp
  · intro α k'
    unfold generated
    rw [hx, htl]
    show (unmarshalHeader hb).bind _ = _
    rw [(C21_roundtrip h1 h.id.1 h.position h.version h.ref hhb).2 h.id.2]
    rfl

/-! ## Segments given by the bytes of their fields -/

/-- The bytes `m` are a segment with header `h` and the fields `fs`, the last of which is not
empty. -/
structure Wire (h : Header) (fs : List Bytes) (m : Bytes) : Prop where
  bytes : ∃ hb, h.marshal = .ok hb ∧ m = join 43 (hb :: fs) ++ [39]
  id : HarmlessId h.id ∧ '+' ∉ h.id ∧ '\'' ∉ h.id
  position : IsInt h.position
  version : IsInt h.version
  ref : ∀ r, h.ref = some r → IsInt r
  fields : ∀ f ∈ fs, Field f
  last : fs.getLast? ≠ some []
  size : m.length < 2 ^ 62

theorem join_length (l : List Bytes) : ∀ q ∈ l, q.length ≤ (join 43 l).length := by
  induction l with
  | nil => simp
  | cons a l ih =>
    intro q hq
    cases l with
    | nil => simp at hq; simp [join, hq]
    | cons b l =>
      rw [join_cons _ _ (by simp)]
      simp only [List.length_append, List.length_cons]
      rcases List.mem_cons.1 hq with rfl | hq
      · omega
      · have := ih q hq; omega

/-- What the generated unmarshalers see of such a segment. -/
theorem generated_wire {h : Header} {fs : List Bytes} {m : Bytes} (hw : Wire h fs m) :
    ∃ hb, (∀ f ∈ fs, f.length < 2 ^ 62) ∧ Segment.extractElements m = .ok (hb :: fs) ∧ unmarshalHeader hb = .ok h := by
  obtain ⟨hb, h1, rfl⟩ := hw.bytes
  have hne : hb ≠ [] := by rw [header_marshal_eq h1]; exact headerBytes_ne_nil _
  have hsz := hw.size
  rw [List.length_append] at hsz
  have hlen := join_length (hb :: fs)
  have hbl := hlen hb (by simp)
  have hhd := (C21_roundtrip h1 hw.id.1 hw.position hw.version hw.ref (by omega)).2 hw.id.2
  refine ⟨hb, fun f hf => ?_, ?_, hhd⟩
  · have := hlen f (by simp [hf]); omega
  · have hbf : Field hb := by rw [header_marshal_eq h1]; exact header_field (header_latin1 h1) hw.id.1
    obtain ⟨init, p, hp, hpn⟩ : ∃ init p, hb :: fs = init ++ [p] ∧ p ≠ [] := by
      rcases List.eq_nil_or_concat fs with rfl | ⟨i, x, rfl⟩
      · exact ⟨[], hb, rfl, hne⟩
      · refine ⟨hb :: i, x, by simp, ?_⟩
        rintro rfl
        exact hw.last (by simp)
    have hall : ∀ f ∈ init ++ [p], Field f := by
      rw [← hp]
      intro f hf
      rcases List.mem_cons.1 hf with rfl | hf
      · exact hbf
      · exact hw.fields f hf
    have hj : join 43 (hb :: fs) = pre 43 init ++ p := by rw [hp]; exact join_snoc _ _ _
    rw [hj] at hsz ⊢
    rw [hp]
    exact extract_segment (fun f hf => hall f (by simp [hf])) (hall p (by simp)) hpn (by omega)

theorem generated_of_wire {h : Header} {fs : List Bytes} {m : Bytes} (hw : Wire h fs m) :
    ∃ hb, (∀ f ∈ fs, f.length < 2 ^ 62) ∧
      ∀ (α : Type) (k : Header → List Bytes → Outcome α), generated m k = k h (hb :: fs) := by
  obtain ⟨hb, h1, h2, h3⟩ := generated_wire hw
  refine ⟨hb, h1, fun α k => ?_⟩
  unfold generated
  rw [h2]
  show (unmarshalHeader hb).bind _ = _
  rw [h3]
  rfl

theorem field_at {α : Type} {l : List Bytes} {i : Nat} {p : Bytes} {f : Bytes → Outcome α} {a : α} (hi : l[i]? = some p)
    (hp : p ≠ []) (h : f p = .ok a) : field l i f = .ok (some a) := by
  simp [field, hi, hp, h, Outcome.map']

theorem lastField_at {α : Type} {l : List Bytes} {i : Nat} {p : Bytes} {f : Bytes → Outcome α} {a : α} (hi : l[i]? = some p)
    (hp : p ≠ []) (h : f (join 43 (l.drop i)) = .ok a) : lastField l i f = .ok (some a) := by
  simp [lastField, hi, hp, h, Outcome.map']

theorem field_nil {α : Type} {l : List Bytes} {i : Nat} (f : Bytes → Outcome α) (hi : l[i]? = none ∨ l[i]? = some []) :
    field l i f = .ok none ∧ lastField l i f = .ok none := by
  rcases hi with hi | hi <;> simp [field, lastField, hi]

/-! ## Segments spelled out -/

/-- A segment ID: capital letters. -/
def Letters (id : Str) : Prop := ∀ c ∈ id, 'A' ≤ c ∧ c ≤ 'Z'

instance (id : Str) : Decidable (Letters id) := by unfold Letters; infer_instance

/-- `ID:position:version:reference+field+...+field'`. -/
def segmentBytes (id : Str) (position version ref : Int) (fields : List Bytes) : Bytes :=
  enc id ++ 58 :: itoa position ++ 58 :: itoa version ++ 58 :: itoa ref ++ fields.flatMap (fun f => 43 :: f) ++ [39]

theorem letters_plain {id : Str} (h : Letters id) : Latin1 id ∧ escape id = id ∧ HarmlessId id ∧ '+' ∉ id ∧ '\'' ∉ id := by
  have hs : ∀ c ∈ id, ¬ Special c ∧ c.toNat ≤ 255 ∧ c ≠ '\x00' ∧ c ≠ '0' := by
    intro c hc
    obtain ⟨h1, h2⟩ := h c hc
    have e1 : 65 ≤ c.toNat := h1
    have e2 : c.toNat ≤ 90 := h2
    refine ⟨?_, by omega, ?_, ?_⟩
    · rintro (rfl | rfl | rfl | rfl | rfl) <;> revert e1 e2 <;> decide
    · rintro rfl; revert e1; decide
    · rintro rfl; revert e1; decide
  refine ⟨fun c hc => (hs c hc).2.1, ?_, ⟨fun hc => (hs _ hc).2.2.1 rfl, not_malformed_head ?_⟩, ?_, ?_⟩
  · clear h
    induction id with
    | nil => rfl
    | cons c id ih =>
      have hc := (hs c (by simp)).1
      rw [escape_cons, ih fun c hc => hs c (by simp [hc])]
      simp [special_iff, hc]
  · intro hh
    cases id with
    | nil => simp at hh
    | cons c id =>
      simp only [List.head?_cons, Option.some.injEq] at hh
      exact (hs c (by simp)).2.2.2 hh
  · exact fun hc => (hs _ hc).1 (by decide)
  · exact fun hc => (hs _ hc).1 (by decide)

theorem itoa_length_le {n : Int} (h : IsInt n) : (itoa n).length ≤ 20 := by
  unfold IsInt at h
  have := natDec_length_le (n := n.natAbs) (k := 19) (by omega) (by omega)
  unfold itoa
  split
  · simp; omega
  · omega

theorem join_flatMap (a : Bytes) (fs : List Bytes) : join 43 (a :: fs) = a ++ fs.flatMap (fun f => 43 :: f) := by
  induction fs generalizing a with
  | nil => simp [join]
  | cons f fs ih => rw [join_cons _ _ (by simp), ih]; simp

/-- Such bytes are a segment. -/
theorem wire_of_fields {id : Str} {p v r : Int} (hid : Letters id) (hp : IsInt p) (hv : IsInt v) (hr : IsInt r)
    (hl : id.length < 2 ^ 60) {fs : List Bytes} (hf : ∀ f ∈ fs, Field f) (hlast : fs.getLast? ≠ some [])
    (hs : (fs.flatMap (fun f => 43 :: f)).length ≤ 2 ^ 61) : Wire ⟨id, p, v, some r⟩ fs (segmentBytes id p v r fs) := by
  obtain ⟨h1, h2, h3, h4, h5⟩ := letters_plain hid
  refine ⟨⟨_, header_marshal _ h1, ?_⟩, ⟨h3, h4, h5⟩, hp, hv, ?_, hf, hlast, ?_⟩
  · rw [join_flatMap]
    simp [segmentBytes, headerBytes, h2]
  · rintro x hx; cases hx; exact hr
  · have e1 := itoa_length_le hp
    have e2 := itoa_length_le hr
    have e3 := itoa_length_le hv
    unfold segmentBytes
    have : (enc id).length = id.length := by simp [enc]
    simp only [List.length_append, List.length_cons, List.length_nil]
    omega

end Verif.Bank

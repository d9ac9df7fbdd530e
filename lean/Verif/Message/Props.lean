import Verif.Message.Lemmas
import Verif.Message.ExtractorProps
import Mathlib.Tactic.Ring

/-
C18 to C20 and C66: messages as they are sent.
-/

namespace Verif.Message

open GoLib Token Verif.Token.Spec Message.Spec Element Element.Spec Segment

/-! ## C18: the declared size -/

theorem marshal_fresh {m m' : BasicMessage} {b : Bytes} (hc : m.cache = []) (hm : m.marshal = .ok (b, m')) :
    ∃ segs b0, m.content = some segs ∧ m.bytes segs = .ok b0 ∧
      BasicMessage.bytes { m with header := { m.header with size := b0.length } } segs = .ok b ∧
      m' = { m with header := { m.header with size := b0.length }, cache := b } := by
  unfold BasicMessage.marshal BasicMessage.setSize at hm
  cases hcon : m.content with
  | none => rw [hcon] at hm; simp at hm
  | some segs =>
    rw [hcon] at hm
    simp only at hm
    cases hb : m.bytes segs with
    | err => rw [hb] at hm; simp at hm
    | panic => rw [hb] at hm; simp at hm
    | ok b0 =>
      rw [hb] at hm
      simp only [Outcome.map', Outcome.bind, hc, if_true] at hm
      cases hb2 : BasicMessage.bytes { m with header := { m.header with size := b0.length } } segs with
      | err => rw [hcon, hc] at hb2; rw [hb2] at hm; simp at hm
      | panic => rw [hcon, hc] at hb2; rw [hb2] at hm; simp at hm
      | ok b1 =>
        have hb3 := hb2
        rw [hcon, hc] at hb3
        rw [hb3] at hm
        simp only [Outcome.ok.injEq, Prod.mk.injEq] at hm
        obtain ⟨rfl, rfl⟩ := hm
        refine ⟨segs, b0, rfl, hb, by rw [← hcon]; exact hb2, ?_⟩
        simp

theorem bytes_size (m : BasicMessage) (segs : List (Option Seg)) :
    ∃ R : Outcome Bytes, ∀ n : Int, BasicMessage.bytes { m with header := { m.header with size := n } } segs =
      R.map' fun r => b!"HNHBK:" ++ itoa m.header.position ++ b!":3+" ++ zeroPad 12 n ++ 43 :: r := by
  obtain ⟨T, hT⟩ := msgHeader_marshal m.header
  refine ⟨T.bind fun t => (marshalSegOpt m.sigBegin).bind fun sb => (marshalSegs segs).bind fun b =>
    (marshalSegOpt m.sigEnd).bind fun se => m.end_.seg.marshal.map' fun e => t ++ sb ++ b ++ se ++ e, ?_⟩
  intro n
  unfold BasicMessage.bytes
  simp only
  rw [hT n]
  cases T with
  | err => simp
  | panic => simp
  | ok t =>
    cases marshalSegOpt m.sigBegin with
    | err => simp
    | panic => simp
    | ok sb =>
      cases marshalSegs segs with
      | err => simp
      | panic => simp
      | ok b =>
        cases marshalSegOpt m.sigEnd with
        | err => simp
        | panic => simp
        | ok se => cases m.end_.seg.marshal <;> simp

/-- C18: the first time a message is marshalled, the size field of its header, twelve
digits, denotes the number of bytes of the whole result.  The size written before
(−1 for every message of a dialog) must itself have fitted into twelve characters. -/
theorem C18_size {m m' : BasicMessage} {b : Bytes} (hc : m.cache = []) (hm : m.marshal = .ok (b, m'))
    (h1 : -(10 ^ 11) < m.header.size) (h2 : m.header.size < 10 ^ 12) (hl : b.length < 10 ^ 12) :
    ∃ ds rest, b = b!"HNHBK:" ++ marshalNumber m.header.position ++ b!":3+" ++ ds ++ 43 :: rest ∧
      ds.length = 12 ∧ DigitString ds ∧ value ds = b.length ∧ m'.header.size = b.length := by
  obtain ⟨segs, b0, _, h0, h3, rfl⟩ := marshal_fresh hc hm
  obtain ⟨R, hR⟩ := bytes_size m segs
  have e0 := hR m.header.size
  have e1 := hR b0.length
  have hself : ({ m with header := { m.header with size := m.header.size } } : BasicMessage) = m := rfl
  rw [hself, h0] at e0
  rw [h3] at e1
  cases R with
  | err => simp at e0
  | panic => simp at e0
  | ok r =>
    simp only [Outcome.map', Outcome.ok.injEq] at e0 e1
    have hlen : b0.length < 10 ^ 12 := by
      have := congrArg List.length e1
      have h0' := congrArg List.length e0
      simp only [List.length_append, List.length_cons, zeroPad_length h1 h2] at h0' this
      have hz : 12 ≤ (zeroPad 12 (b0.length : Int)).length := by
        have := (C09_digit b0.length 12).2.2.1
        unfold marshalDigit at this
        omega
      omega
    have hz : (zeroPad 12 (b0.length : Int)).length = 12 := zeroPad_length (by omega) (by exact_mod_cast hlen)
    have hbb : b.length = b0.length := by
      have h0' := congrArg List.length e0
      have := congrArg List.length e1
      simp only [List.length_append, List.length_cons, zeroPad_length h1 h2, hz] at h0' this
      omega
    have hd := C09_digit b0.length 12
    unfold marshalDigit at hd
    refine ⟨zeroPad 12 (b0.length : Int), r, e1, hz, hd.1, ?_, ?_⟩
    · rw [hbb]; exact hd.2.1
    · simp [hbb]

/-- C18: a message that has been marshalled always yields the same bytes again,
whatever is changed in between, as long as marshalling its contents does not panic. -/
theorem C18_cached {m m1 m2 m3 : BasicMessage} {b b' : Bytes} (hm : m.marshal = .ok (b, m1)) (hne : b ≠ [])
    (hc : m2.cache = m1.cache) (hm2 : m2.marshal = .ok (b', m3)) : b' = b := by
  have h1 : m1.cache = b := by
    unfold BasicMessage.marshal BasicMessage.setSize at hm
    cases hcon : m.content with
    | none => rw [hcon] at hm; simp at hm
    | some segs =>
      rw [hcon] at hm
      simp only at hm
      cases hb : m.bytes segs with
      | err => rw [hb] at hm; simp at hm
      | panic => rw [hb] at hm; simp at hm
      | ok b0 =>
        rw [hb] at hm
        simp only [Outcome.map', Outcome.bind] at hm
        split at hm
        · split at hm
          · simp only [Outcome.ok.injEq, Prod.mk.injEq] at hm
            rw [← hm.2, ← hm.1]
          · simp at hm
          · simp at hm
        · simp only [Outcome.ok.injEq, Prod.mk.injEq] at hm
          rw [← hm.2, ← hm.1]
  have hcne : m2.cache ≠ [] := by rw [hc, h1]; exact hne
  unfold BasicMessage.marshal BasicMessage.setSize at hm2
  cases hcon : m2.content with
  | none => rw [hcon] at hm2; simp at hm2
  | some segs =>
    rw [hcon] at hm2
    simp only at hm2
    cases hb : m2.bytes segs with
    | err => rw [hb] at hm2; simp at hm2
    | panic => rw [hb] at hm2; simp at hm2
    | ok b0 =>
      rw [hb] at hm2
      simp only [Outcome.map', Outcome.bind, if_neg hcne, Outcome.ok.injEq, Prod.mk.injEq] at hm2
      rw [← hm2.1, hc, h1]

/-- A dialog end message as the dialog builds it. -/
def sampleMessage : BasicMessage :=
  { header := newMsgHeader (-1) 300 c!"4711" 2, end_ := ⟨-1, 2⟩, sigBegin := none, sigEnd := none,
    content := some [some (newSegment 3 c!"HKEND" 1 [some (.identification c!"4711" 30)]), none],
    version := .fints300, cache := [] }

/-- Non-vacuity of C18: 62 bytes are declared and sent; the number set afterwards is not
sent. -/
example : ∃ m', sampleMessage.marshal =
      .ok (b!"HNHBK:1:3+000000000062+300+4711+2'HKEND:3:1+4711'HNHBS:-1:1+2'", m') ∧
    ∃ m'', (m'.setMessageNumber 99).marshal =
      .ok (b!"HNHBK:1:3+000000000062+300+4711+2'HKEND:3:1+4711'HNHBS:-1:1+2'", m'') := by
  refine ⟨{ sampleMessage with header := { sampleMessage.header with size := 62 }, cache :=
    b!"HNHBK:1:3+000000000062+300+4711+2'HKEND:3:1+4711'HNHBS:-1:1+2'" }, ?_, ?_⟩
  · rfl
  · exact ⟨_, rfl⟩

/-! ## C19: positions -/

theorem positionOpt_spec (n : Int) (s : Option Seg) :
    (positionOpt n s).1.toList = s.toList.mapIdx (fun i x => x.setPosition (n + 1 + i)) ∧
    (positionOpt n s).2 = n + s.toList.length := by
  cases s <;> simp [positionOpt]

theorem positionAll_spec (ss : List (Option Seg)) : ∀ n : Int,
    (positionAll n ss).1.filterMap id = (ss.filterMap id).mapIdx (fun i x => x.setPosition (n + 1 + i)) ∧
    (positionAll n ss).2 = n + (ss.filterMap id).length := by
  induction ss with
  | nil => intro n; simp [positionAll]
  | cons s r ih =>
    intro n
    cases s with
    | none =>
      obtain ⟨h1, h2⟩ := ih n
      simp only [positionAll, positionOpt]
      exact ⟨by simpa using h1, by simpa using h2⟩
    | some s =>
      obtain ⟨h1, h2⟩ := ih (n + 1)
      simp only [positionAll, positionOpt]
      have e : ∀ (x : Seg) (l : List (Option Seg)), (some x :: l).filterMap id = x :: l.filterMap id := fun _ _ => rfl
      constructor
      · rw [e, e, List.mapIdx_cons, h1]
        congr 1
        · simp
        · congr 1; funext i x; congr 1; push_cast; ring_nf
      · rw [h2, e, List.length_cons]; push_cast; ring_nf

/-- C19: after `SetSegmentPositions` the segments that are transmitted carry the
positions 1, 2, 3, … in the order of transmission, whatever they were before, and
nothing else about them has changed. -/
theorem C19_positions {m m' : BasicMessage} (h : m.setPositions = .ok m') :
    transmitted m' = (transmitted m).mapIdx fun i s => s.setPosition (i + 1) := by
  unfold BasicMessage.setPositions at h
  cases hc : m.content with
  | none => rw [hc] at h; simp at h
  | some segs =>
    rw [hc] at h
    simp only [Outcome.ok.injEq] at h
    subst h
    unfold transmitted
    obtain ⟨a1, a2⟩ := positionOpt_spec 1 m.sigBegin
    obtain ⟨b1, b2⟩ := positionAll_spec segs (positionOpt 1 m.sigBegin).2
    obtain ⟨c1, c2⟩ := positionOpt_spec (positionAll (positionOpt 1 m.sigBegin).2 segs).2 m.sigEnd
    simp only [Option.getD_some, hc]
    rw [a1, b1, c1, c2, b2, a2]
    rw [List.mapIdx_append, List.mapIdx_append, List.cons_append, List.cons_append, List.mapIdx_cons, List.mapIdx_append]
    simp only [List.cons_append, List.mapIdx_cons, List.mapIdx_nil, List.length_append, List.length_cons]
    congr 1
    congr 1
    · congr 1
      · congr 1
        · congr 1; funext i x; congr 1; push_cast; ring_nf
        · congr 1; funext i x; congr 1; push_cast; ring_nf
      · congr 1; funext i x; congr 1; push_cast; ring_nf
    · congr 1
      unfold MsgEnd.seg newSegment Seg.setPosition Header.setPosition newHeader
      simp only [Seg.mk.injEq, Header.mk.injEq, and_true, true_and]
      push_cast
      ring_nf

/-- C19: position `i + 1` for the `i`-th transmitted segment. -/
theorem C19_consecutive {m m' : BasicMessage} (h : m.setPositions = .ok m') (i : Nat) (s : Seg)
    (hi : (transmitted m')[i]? = some s) : s.header.position = i + 1 := by
  rw [C19_positions h, List.getElem?_mapIdx] at hi
  cases hx : (transmitted m)[i]? with
  | none => rw [hx] at hi; simp at hi
  | some x => rw [hx] at hi; simp at hi; rw [← hi]; rfl

/-- C19: what is transmitted are these segments: marshalling a message for the first
time yields the concatenation of the transmitted segments, with the size set. -/
theorem C19_transmitted {m m' : BasicMessage} {b : Bytes} (hc : m.cache = []) (hm : m.marshal = .ok (b, m')) :
    ∃ bs : List Bytes, (transmitted m').map Seg.marshal = bs.map .ok ∧ b = bs.flatten ∧
      (transmitted m').tail = (transmitted m).tail ∧ m'.header = { m.header with size := m'.header.size } := by
  obtain ⟨segs, b0, hcon, h0, h3, rfl⟩ := marshal_fresh hc hm
  rw [bytes_eq _ segs (by simpa using hcon)] at h3
  obtain ⟨bs, h4, h5⟩ := marshalAllSegs_ok.1 h3
  exact ⟨bs, h4, h5, rfl, rfl⟩

/-- C19: numbering again changes nothing. -/
theorem C19_idempotent {m m' : BasicMessage} (h : m.setPositions = .ok m') : m'.setPositions = .ok m' := by
  have hopt : ∀ n s, positionOpt n (positionOpt n s).1 = positionOpt n s := by
    intro n s; cases s <;> simp [positionOpt, Seg.setPosition, Header.setPosition]
  have hall : ∀ ss n, positionAll n (positionAll n ss).1 = positionAll n ss := by
    intro ss
    induction ss with
    | nil => intro n; rfl
    | cons s r ih => intro n; simp [positionAll, hopt, ih]
  unfold BasicMessage.setPositions at h
  cases hc : m.content with
  | none => rw [hc] at h; simp at h
  | some segs =>
    rw [hc] at h
    simp only [Outcome.ok.injEq] at h
    subst h
    unfold BasicMessage.setPositions
    simp only [hopt, hall]

/-- C19: numbering panics exactly without contents, and for a signed message also
without signature. -/
theorem C19_panics (m : BasicMessage) :
    (m.setPositions = .panic ↔ m.content = none) ∧ m.setPositions ≠ .err ∧
    (m.setPositionsSigned = .panic ↔ m.content = none ∨ m.sigBegin = none ∨ m.sigEnd = none) := by
  refine ⟨?_, ?_, ?_⟩
  · unfold BasicMessage.setPositions; cases m.content <;> simp
  · unfold BasicMessage.setPositions; cases m.content <;> simp
  · unfold BasicMessage.setPositionsSigned BasicMessage.setPositions
    cases m.content <;> cases m.sigBegin <;> cases m.sigEnd <;> simp

/-- Non-vacuity of C19: a nil segment in the middle does not leave a gap. -/
example : ∃ m', sampleMessage.setPositions = .ok m' ∧ (transmitted m').map (fun s => (s.header.id, s.header.position)) =
    [(c!"HNHBK", 1), (c!"HKEND", 2), (c!"HNHBS", 3)] := ⟨_, rfl, rfl⟩

theorem seg_marshal_ne_nil {s : Seg} {b : Bytes} (h : s.marshal = .ok b) : b ≠ [] := by
  unfold Seg.marshal at h
  cases h1 : s.header.marshal with
  | err => rw [h1] at h; simp at h
  | panic => rw [h1] at h; simp at h
  | ok hb =>
    cases h2 : DE.marshalAll s.elements with
    | err => rw [h1, h2] at h; simp at h
    | panic => rw [h1, h2] at h; simp at h
    | ok ps =>
      rw [h1, h2] at h
      simp only [Outcome.bind, Outcome.map', Outcome.ok.injEq] at h
      rw [← h]
      simp

theorem length_le_flatten {bs : List Bytes} (h : ∀ b ∈ bs, b ≠ []) : bs.length ≤ bs.flatten.length := by
  induction bs with
  | nil => simp
  | cons b bs ih =>
    have h1 : 0 < b.length := List.length_pos_iff.2 (h b (by simp))
    have := ih fun x hx => h x (by simp [hx])
    simp only [List.length_cons, List.flatten_cons, List.length_append]
    omega

theorem map_marshal_getElem {segs : List Seg} {bs : List Bytes} (hm : segs.map Seg.marshal = bs.map .ok) (i : Nat) :
    (∀ s : Seg, segs[i]? = some s → ∃ b : Bytes, bs[i]? = some b ∧ s.marshal = .ok b) ∧
    (∀ b : Bytes, bs[i]? = some b → ∃ s : Seg, segs[i]? = some s ∧ s.marshal = .ok b) := by
  have := congrArg (fun l => l[i]?) hm
  simp only [List.getElem?_map] at this
  constructor
  · intro s hs
    rw [hs] at this
    cases hb : bs[i]? with
    | none => rw [hb] at this; simp at this
    | some b => rw [hb] at this; exact ⟨b, rfl, by simpa using this⟩
  · intro b hb
    rw [hb] at this
    cases hs : segs[i]? with
    | none => rw [hs] at this; simp at this
    | some s => rw [hs] at this; exact ⟨s, rfl, by simpa using this⟩

/-- C19: the numbers on the wire.  Splitting what was sent into segments and reading the
header of the `i`-th, one finds position `i + 1` and the ID and version of the `i`-th
transmitted segment. -/
theorem C19_wire {m m1 m2 : BasicMessage} {b : Bytes} (h : m.setPositions = .ok m1) (hc : m1.cache = [])
    (hm : m1.marshal = .ok (b, m2)) (hu : ∀ s ∈ transmitted m2, Undisturbing s)
    (hid : ∀ s ∈ transmitted m2, '+' ∉ s.header.id ∧ '\'' ∉ s.header.id ∧ IsInt s.header.version ∧
      ∀ r, s.header.ref = some r → IsInt r) (hl : b.length + 2 < 2 ^ 63) :
    ∃ bs : List Bytes, (newExtractor b).extract.2 = .ok bs ∧ bs.length = (transmitted m).length ∧
      ∀ (i : Nat) (s : Seg) (x : Bytes), (transmitted m)[i]? = some s → bs[i]? = some x →
        ∃ hb rest, Segment.extractElements x = .ok (hb :: rest) ∧
          unmarshalHeader hb = .ok { s.header with position := i + 1 } := by
  obtain ⟨bs, h1, rfl, h2, h3⟩ := C19_transmitted hc hm
  have hpos := C19_positions h
  have hlen : bs.length = (transmitted m2).length := by
    have := congrArg List.length h1
    simpa using this.symm
  -- the headers do not depend on the size
  have hhead : (transmitted m2).map Seg.header = (transmitted m1).map Seg.header := by
    have e : ∀ m : BasicMessage, transmitted m = m.header.seg :: (transmitted m).tail := fun m => by
      unfold transmitted; simp
    rw [e m2, e m1, List.map_cons, List.map_cons, h2, h3]
    rfl
  have hne : ∀ x ∈ bs, x ≠ [] := by
    intro x hx
    obtain ⟨i, hi⟩ := List.mem_iff_getElem?.1 hx
    obtain ⟨s, _, hs⟩ := (map_marshal_getElem h1 i).2 x hi
    exact seg_marshal_ne_nil hs
  have hcount := length_le_flatten hne
  obtain ⟨h4, h5⟩ := C15_structure hu h1 (by omega)
  refine ⟨bs, h4, ?_, ?_⟩
  · have := congrArg List.length hhead
    rw [hlen]
    simp only [List.length_map] at this
    rw [this, hpos, List.length_mapIdx]
  · intro i s x hs hx
    obtain ⟨s2, hs2, hmx⟩ := (map_marshal_getElem h1 i).2 x hx
    obtain ⟨hb, ps, out, g1, g2, g3, g4⟩ := h5 i s2 x hs2 hx
    have hh : s2.header = { s.header with position := (i : Int) + 1 } := by
      have := congrArg (fun l => l[i]?) hhead
      simp only [List.getElem?_map, hs2, hpos, List.getElem?_mapIdx, hs, Option.map_some] at this
      simpa [Seg.setPosition, Header.setPosition] using this
    have hmem : s2 ∈ transmitted m2 := List.mem_of_getElem? hs2
    have hnb : hb ≠ [] := by rw [header_marshal_eq g1]; exact headerBytes_ne_nil _
    obtain ⟨rest, rfl⟩ : ∃ rest, out = hb :: rest := by
      obtain ⟨k, e, hlast⟩ := g3
      cases out with
      | nil =>
        cases k with
        | zero => simp at e
        | succ k => simp [List.replicate_succ] at e; exact absurd e.1 hnb
      | cons o out => simp at e; exact ⟨out, by rw [e.1]⟩
    refine ⟨hb, rest, g4, ?_⟩
    obtain ⟨a1, a2, a3, a4⟩ := hid s2 hmem
    have hi : i < bs.length := (List.getElem?_eq_some_iff.1 hx).1
    have hxl : x.length ≤ bs.flatten.length := (List.sublist_flatten_of_mem (List.mem_of_getElem? hx)).length_le
    have hhbl : hb.length ≤ x.length := by
      obtain ⟨hb', ps', init, p, w1, w2, w3, w4, w5, w6⟩ := segment_wire hmx (hu s2 hmem).id (hu s2 hmem).elements (hu s2 hmem).notCut
      rw [g1] at w1
      cases w1
      obtain ⟨k, e, _⟩ := w3
      rw [w6]
      cases init with
      | nil => simp at e; rw [e.1]; simp [pre]
      | cons a init => simp at e; rw [e.1]; simp [pre]
    rw [← hh]
    refine (C21_roundtrip g1 (hu s2 hmem).id ?_ a3 a4 (by omega)).2 ⟨a1, a2⟩
    rw [hh]
    constructor <;> simp only <;> omega

/-! ## C20: the PIN/TAN encryption wrapper -/

/-- The segments of a message that are wrapped: signature header, content, signature
end. -/
def inner (m : BasicMessage) : List Seg :=
  m.sigBegin.toList ++ (m.content.getD []).filterMap id ++ m.sigEnd.toList

theorem inner_bytes (m : BasicMessage) (segs : List (Option Seg)) (h : m.content = some segs) :
    marshalAllSegs (inner m) = (marshalSegOpt m.sigBegin).bind fun sb => (marshalSegs segs).bind fun b =>
      (marshalSegOpt m.sigEnd).map' fun se => sb ++ b ++ se := by
  unfold inner marshalAllSegs
  have h3 := marshalSegs_filterMap segs
  unfold marshalAllSegs at h3
  simp only [List.map_append, h, Option.getD_some, marshalSegs_append, marshalAllSegs_toList, h3]
  cases marshalSegOpt m.sigBegin <;> cases marshalSegs segs <;> cases marshalSegOpt m.sigEnd <;> simp

/-- C20: encrypting with the PIN/TAN provider.  The encrypted message is the header and
the end of the message (hence the same dialog ID and number) around HNVSK and an HNVSD
whose data are the marshalled inner segments; decrypting these yields them unchanged. -/
theorem C20_encrypt {m : BasicMessage} {p : CryptoProvider} {now : Time.Civil} {e : EncryptedMessage}
    (h : m.encrypt p now = .ok e) :
    (∃ bs : List Bytes, (inner m).map Seg.marshal = bs.map .ok ∧ e.data = bs.flatten) ∧
    p.decrypt e.data = .ok e.data ∧ e.msg.header = m.header ∧ e.msg.end_ = m.end_ ∧ e.msg.cache = [] ∧
    ∃ hk, hk.header.id = c!"HNVSK" ∧
      transmitted e.msg = [m.header.seg, hk, newSegment 999 c!"HNVSD" 1 [some (.binary e.data (-1))], m.end_.seg] := by
  unfold BasicMessage.encrypt at h
  cases hc : m.content with
  | none => rw [hc] at h; simp at h
  | some segs =>
    rw [hc] at h
    simp only at h
    have hi := inner_bytes m segs hc
    cases h1 : marshalSegOpt m.sigBegin with
    | err => rw [h1] at h; simp at h
    | panic => rw [h1] at h; simp at h
    | ok sb =>
      cases h2 : marshalSegs segs with
      | err => rw [h1, h2] at h; simp at h
      | panic => rw [h1, h2] at h; simp at h
      | ok b =>
        cases h3 : marshalSegOpt m.sigEnd with
        | err => rw [h1, h2, h3] at h; simp at h
        | panic => rw [h1, h2, h3] at h; simp at h
        | ok se =>
          rw [h1, h2, h3] at h hi
          simp only [Outcome.bind, CryptoProvider.encrypt, Outcome.map'] at h hi
          split at h
          · rename_i hx
            split at hx
            · simp at hx
            · simp only [Outcome.ok.injEq] at h hx
              subst h
              subst hx
              refine ⟨marshalAllSegs_ok.1 hi, rfl, rfl, rfl, rfl, _, ?_, rfl⟩
              unfold encryptionHeader
              cases m.version <;> rfl
          · simp at h
          · simp at h

/-- C20: encrypting fails, without panic, exactly for a message without contents or an
empty PIN. -/
theorem C20_encrypt_err (m : BasicMessage) (p : CryptoProvider) (now : Time.Civil) :
    m.encrypt p now = .err ↔ m.content = none ∨ (p.key.pin = [] ∧ ∃ b, marshalAllSegs (inner m) = .ok b) := by
  unfold BasicMessage.encrypt
  cases hc : m.content with
  | none => simp
  | some segs =>
    rw [inner_bytes m segs hc]
    have n1 := segOpt_ne_err m.sigBegin
    have n2 := segs_ne_err segs
    have n3 := segOpt_ne_err m.sigEnd
    simp only
    cases h1 : marshalSegOpt m.sigBegin <;> cases h2 : marshalSegs segs <;> cases h3 : marshalSegOpt m.sigEnd <;>
      simp_all [CryptoProvider.encrypt]
    by_cases hp : p.key.pin = [] <;> simp [hp]

theorem not_malformed_comma {s : Str} (h : ',' ∉ s) : ¬ LikeMalformedFloat s := by
  rintro ⟨ds, w, rfl, _⟩
  simp at h

/-- Texts of letters and digits are plain. -/
theorem plain_literal {s : Str} (h : s.all Char.isAlphanum = true) : PlainText s := by
  have hx : ∀ c, c.isAlphanum = false → c ∉ s := by
    intro c hc hm
    have := List.all_eq_true.1 h c hm
    rw [hc] at this
    cases this
  exact ⟨hx _ (by decide), not_malformed_comma (hx _ (by decide)),
    fun h => hx ':' (by decide) (List.mem_of_getLast? h), fun h => hx '+' (by decide) (List.mem_of_getLast? h)⟩

theorem harmless_literal {s : Str} (h : s.all Char.isAlphanum = true) : HarmlessId s :=
  ⟨(plain_literal h).1, (plain_literal h).2.1⟩

theorem seg_marshal_last {s : Seg} {b : Bytes} (h : s.marshal = .ok b) : b.getLast? = some 39 := by
  unfold Seg.marshal at h
  cases h1 : s.header.marshal with
  | err => rw [h1] at h; simp at h
  | panic => rw [h1] at h; simp at h
  | ok hb =>
    cases h2 : DE.marshalAll s.elements with
    | err => rw [h1, h2] at h; simp at h
    | panic => rw [h1, h2] at h; simp at h
    | ok ps =>
      rw [h1, h2] at h
      simp only [Outcome.bind, Outcome.map', Outcome.ok.injEq] at h
      rw [← h]
      simp

theorem flatten_plainData {segs : List Seg} {bs : List Bytes} (hm : segs.map Seg.marshal = bs.map .ok) :
    PlainData bs.flatten := by
  rcases List.eq_nil_or_concat bs with rfl | ⟨init, p, rfl⟩
  · simp [PlainData]
  · obtain ⟨s, _, hs⟩ := (map_marshal_getElem hm init.length).2 p (by simp)
    have hl := seg_marshal_last hs
    have : (init.concat p).flatten.getLast? = some 39 := by
      rw [List.concat_eq_append, List.flatten_append, List.getLast?_append]
      simp [hl]
    rw [PlainData, this]
    decide

/-- Texts that are put into the security segments of an encrypted message. -/
structure PlainKey (p : CryptoProvider) : Prop where
  system : PlainText p.clientSystemId
  bank : PlainText p.key.keyName.bankId
  user : PlainText p.key.keyName.userId
  keyType : PlainText p.key.keyName.keyType

theorem encryptionHeader_undisturbing {v : Version} {p : CryptoProvider} (h : PlainKey p) (now : Time.Civil) :
    Undisturbing (encryptionHeader v p.securityFn p.clientSystemId p.key.keyName now) := by
  have l : ∀ {s : Str}, s.all Char.isAlphanum = true → PlainText s := plain_literal
  have hz : PlainData (List.replicate 8 0) := by unfold PlainData; decide
  cases v with
  | hbci220 =>
    refine undisturbing_of_plain (harmless_literal (s := c!"HNVSK") (by decide)) (plainAll_iff.1 ?_)
    simp only [encryptionHeader, newSegment, securityId, securityDate, pinTanEncryptionAlgorithm, keyNameDE,
      bankIdentification, PlainAll, PlainOpt, Plain, and_true, true_and]
    exact ⟨l (by decide), l (by decide), ⟨l (by decide), h.system⟩, l (by decide),
      ⟨l (by decide), l (by decide), l (by decide), hz, l (by decide), l (by decide)⟩,
      ⟨h.bank, h.user, h.keyType⟩, l (by decide)⟩
  | fints300 =>
    refine undisturbing_of_plain (harmless_literal (s := c!"HNVSK") (by decide)) (plainAll_iff.1 ?_)
    simp only [encryptionHeader, newSegment, securityId, securityDate, pinTanEncryptionAlgorithm, keyNameDE,
      bankIdentification, securityProfile, PlainAll, PlainOpt, Plain, and_true, true_and]
    exact ⟨l (by decide), l (by decide), l (by decide), ⟨l (by decide), h.system⟩, l (by decide),
      ⟨l (by decide), l (by decide), l (by decide), hz, l (by decide), l (by decide)⟩,
      ⟨h.bank, h.user, h.keyType⟩, l (by decide)⟩

theorem extract_segments {m : Bytes} {bs : List Bytes} (h : (newExtractor m).extract.2 = .ok bs) :
    (newExtractor m).extract.1.segments = bs := by
  obtain ⟨ss, u, r, _, _, _, h4 | h4 | h4⟩ := extract_cases m []
  all_goals
    unfold newExtractor at h ⊢
    rw [h4.2] at h ⊢
  · simpa using h
  · simp at h
  · simp at h

theorem seg_prefix {s : Seg} {b : Bytes} (h : s.marshal = .ok b) (hu : Undisturbing s) :
    ∃ r, b = headerBytes s.header ++ r := by
  obtain ⟨hb, ps, init, p, w1, w2, w3, w4, w5, w6⟩ := segment_wire h hu.id hu.elements hu.notCut
  rw [← header_marshal_eq w1]
  obtain ⟨k, e, _⟩ := w3
  rw [w6]
  cases init with
  | nil => simp at e; rw [e.1]; exact ⟨[39], by simp [pre]⟩
  | cons a init =>
    simp only [List.cons_append, List.cons.injEq] at e
    rw [e.1]
    exact ⟨43 :: (pre 43 init ++ p ++ [39]), by simp [pre]⟩

/-- Elements of a marshalled segment with known element bytes. -/
theorem seg_elements {s : Seg} {b : Bytes} {ps init : List Bytes} {q : Bytes} {k : Nat} (hm : s.marshal = .ok b)
    (hu : Undisturbing s) (hl : b.length < 2 ^ 63) (hps : s.elements.map DE.marshalOpt = ps.map .ok)
    (he : headerBytes s.header :: ps = init ++ [q] ++ List.replicate k []) (hq : q ≠ []) :
    Segment.extractElements b = .ok (init ++ [q]) := by
  obtain ⟨hb, ps', out, h1, h2, h3, h4⟩ := C13_sound hm hu.id hu.elements hu.notCut hl
  have : ps' = ps := by
    have : ps'.map (Outcome.ok (α := Bytes)) = ps.map .ok := by rw [← h2, hps]
    exact (List.map_inj_right (fun a b h => by simpa using h)).1 this
  subst this
  rw [header_marshal_eq h1] at h3
  rw [h4, (dropTrailing_iff hq he).1 h3]

theorem read_literal_header {id : Str} {pos ver : Int} (hid : id.all Char.isAlphanum = true) (hlat : Latin1 id)
    (hp : IsInt pos) (hv : IsInt ver) (hl : (headerBytes (newHeader id pos ver)).length + 2 < 2 ^ 63) :
    unmarshalHeader (headerBytes (newHeader id pos ver)) = .ok (newHeader id pos ver) := by
  have hx : ∀ c, c.isAlphanum = false → c ∉ id := by
    intro c hc hm
    have := List.all_eq_true.1 hid c hm
    rw [hc] at this
    cases this
  exact (C21_roundtrip (h := newHeader id pos ver) (header_marshal _ hlat) (harmless_literal hid) hp hv (by intro r hr; cases hr)
    hl).2 ⟨hx _ (by decide), hx _ (by decide)⟩

theorem msgHeader_undisturbing {h : MsgHeader} (hd : PlainText h.dialogId) (hr : ∀ d n, h.ref = some (d, n) → PlainText d) :
    Undisturbing h.seg := by
  refine undisturbing_of_plain (harmless_literal (s := c!"HNHBK") (by decide)) (plainAll_iff.1 ?_)
  cases hx : h.ref with
  | none => simpa only [MsgHeader.seg, newSegment, hx, Option.map_none, PlainAll, PlainOpt, Plain, and_true, true_and] using hd
  | some r =>
    simp only [MsgHeader.seg, newSegment, hx, Option.map_some, referencingMessage, PlainAll, PlainOpt, Plain, and_true, true_and]
    exact ⟨hd, hr r.1 r.2 hx⟩

theorem msgEnd_undisturbing (e : MsgEnd) : Undisturbing e.seg := by
  refine undisturbing_of_plain (harmless_literal (s := c!"HNHBS") (by decide)) (plainAll_iff.1 ?_)
  simp only [MsgEnd.seg, newSegment, PlainAll, PlainOpt, Plain, and_true]

theorem encryptedData_undisturbing {d : Bytes} (h : PlainData d) :
    Undisturbing (newSegment 999 c!"HNVSD" 1 [some (.binary d (-1))]) := by
  refine undisturbing_of_plain (harmless_literal (s := c!"HNVSD") (by decide)) (plainAll_iff.1 ?_)
  simpa only [newSegment, PlainAll, PlainOpt, Plain, and_true] using h

theorem read_encryptedData {d b : Bytes} (h : PlainData d)
    (hm : (newSegment 999 c!"HNVSD" 1 [some (.binary d (-1))]).marshal = .ok b) (hl : b.length ≤ 2 ^ 48) :
    unmarshalEncryptedData b = .ok (⟨c!"HNVSD", 999, 1, none⟩, some d) := by
  have hu := encryptedData_undisturbing h
  have hne : marshalBinary d ≠ [] := by unfold marshalBinary; simp
  have hx := seg_elements (ps := [marshalBinary d]) (init := [headerBytes (newHeader c!"HNVSD" 999 1)]) (q := marshalBinary d)
    (k := 0) hm hu (by omega) (by simp [newSegment, DE.marshalOpt, DE.marshal]) rfl hne
  have hdl : d.length ≤ b.length := by
    unfold Seg.marshal at hm
    obtain ⟨hb, ps, init, p, w1, w2, ⟨k, e, w3⟩, w4, w5, w6⟩ := segment_wire (s := newSegment 999 c!"HNVSD" 1 [some (.binary d (-1))])
      (m := b) (by unfold Seg.marshal; exact hm) hu.id hu.elements hu.notCut
    have : ps = [marshalBinary d] := by
      cases ps with
      | nil => simp [newSegment] at w2
      | cons q ps => simp [newSegment, DE.marshalOpt, DE.marshal] at w2; rw [w2.1, w2.2]
    subst this
    have hmem : marshalBinary d ∈ init ++ [p] := by
      have : marshalBinary d ∈ init ++ [p] ++ List.replicate k [] := by rw [← e]; simp
      rcases List.mem_append.1 this with h | h
      · exact h
      · exact absurd (List.mem_replicate.1 h).2 hne
    have h1 : (marshalBinary d).length ≤ b.length := by
      rw [w6]
      rcases List.mem_append.1 hmem with hm | hm
      · unfold pre
        have := (List.sublist_flatten_of_mem (List.mem_map.2 ⟨_, hm, rfl⟩ : marshalBinary d ++ [43] ∈ init.map fun q => q ++ [43])).length_le
        rw [List.flatMap_def]
        simp only [List.length_append] at this ⊢
        omega
      · simp only [List.mem_singleton] at hm
        rw [← hm]
        simp only [List.length_append]
        omega
    unfold marshalBinary at h1
    simp only [List.length_append, List.length_cons] at h1
    omega
  unfold unmarshalEncryptedData
  rw [hx]
  simp only [Outcome.bind, List.singleton_append, lastField, List.getElem?_cons_succ, List.getElem?_cons_zero,
    List.drop_succ_cons, List.drop_zero, if_neg hne]
  rw [read_literal_header (by decide) (by decide) ⟨by decide, by decide⟩ ⟨by decide, by decide⟩ (by decide)]
  have hj : join 43 [marshalBinary d] = marshalBinary d := rfl
  simp only [hj, C07_roundtrip d (by omega), Outcome.map']
  rfl

theorem read_msgHeader {h : MsgHeader} {b : Bytes} (hd : PlainText h.dialogId) (hr : h.ref = none)
    (hi : IsInt h.position ∧ IsInt h.size ∧ IsInt h.hbciVersion ∧ IsInt h.number)
    (hm : h.seg.marshal = .ok b) (hl : b.length + 2 < 2 ^ 63) :
    unmarshalMsgHeader b = .ok ⟨⟨c!"HNHBK", h.position, 3, none⟩, some h.size, some h.hbciVersion,
      if h.dialogId = [] then none else some h.dialogId, some h.number, none⟩ := by
  have hu := msgHeader_undisturbing (h := h) hd (by intro d n hx; rw [hr] at hx; cases hx)
  rcases C06_text h.dialogId with ⟨hlat, dt, hdt, hud, hdl⟩ | ⟨_, hp⟩
  · have hz : zeroPad 12 h.size ≠ [] := by
      intro hx
      have := C09_digit_roundtrip h.size 12 hi.2.1
      unfold marshalDigit at this
      rw [hx] at this
      cases this
    have hde : dt = [] ↔ h.dialogId = [] := by
      constructor
      · intro hx
        rw [hx] at hdl
        have : h.dialogId.length = 0 := by simp only [List.length_nil] at hdl; omega
        exact List.length_eq_zero_iff.1 this
      · intro hx
        rw [hx] at hdl
        exact List.length_eq_zero_iff.1 (by simpa using hdl)
    have hx := seg_elements (ps := [zeroPad 12 h.size, itoa h.hbciVersion, dt, itoa h.number, []])
      (init := [headerBytes (newHeader c!"HNHBK" h.position 3), zeroPad 12 h.size, itoa h.hbciVersion, dt])
      (q := itoa h.number) (k := 1) hm hu (by omega)
      (by simp only [MsgHeader.seg, newSegment, hr, Option.map_none, List.map_cons, List.map_nil, DE.marshalOpt, DE.marshal,
            hdt]; rfl)
      rfl (itoa_ne_nil _)
    have hhl : (headerBytes (newHeader c!"HNHBK" h.position 3)).length ≤ b.length := by
      obtain ⟨r, rfl⟩ := seg_prefix hm hu
      simp only [List.length_append]
      exact Nat.le_add_right _ _
    unfold unmarshalMsgHeader
    rw [hx]
    simp only [Outcome.bind, List.cons_append, List.nil_append, lastField, field, List.getElem?_cons_succ,
      List.getElem?_cons_zero, List.getElem?_nil, if_neg hz, if_neg (itoa_ne_nil _)]
    rw [read_literal_header (by decide) (by decide) hi.1 ⟨by decide, by decide⟩ (by omega)]
    have n1 := C09_digit_roundtrip h.size 12 hi.2.1
    have n2 := C09_number h.hbciVersion hi.2.2.1
    have n3 := C09_number h.number hi.2.2.2
    unfold marshalDigit at n1
    unfold marshalNumber at n2 n3
    rw [n1, n2, n3]
    simp only [Outcome.map']
    by_cases hdd : h.dialogId = []
    · rw [if_pos hdd, if_pos (hde.2 hdd)]
      rfl
    · rw [if_neg hdd, if_neg (fun hx => hdd (hde.1 hx)), hud]
      rfl
  · unfold Seg.marshal at hm
    have : DE.marshalAll h.seg.elements = .panic := by
      simp only [MsgHeader.seg, newSegment, DE.marshalAll, DE.marshalOpt, DE.marshal, hp, Outcome.bind, Outcome.map']
    rw [this] at hm
    cases hx : h.seg.header.marshal <;> rw [hx] at hm <;> simp at hm

/-- C20: the wire.  What is sent for an encrypted message splits into four segments.
Looking up HNVSD in it and reading it returns exactly the wrapped data; looking up
HNHBK returns the size, version, dialog ID and number of the message. -/
theorem C20_wire {m m' : BasicMessage} {p : CryptoProvider} {now : Time.Civil} {e : EncryptedMessage} {b : Bytes}
    (h : m.encrypt p now = .ok e) (hm : e.msg.marshal = .ok (b, m')) (hk : PlainKey p)
    (hd : PlainText m.header.dialogId) (hr : m.header.ref = none)
    (hi : IsInt m.header.position ∧ IsInt m.header.hbciVersion ∧ IsInt m.header.number)
    (hs : -(10 ^ 11) < m.header.size ∧ m.header.size < 10 ^ 12) (hl : b.length < 10 ^ 12) :
    ∃ bs : List Bytes, (newExtractor b).extract.2 = .ok bs ∧ bs.length = 4 ∧
      (∃ s, (newExtractor b).extract.1.findSegment b!"HNVSD" = some s ∧
        unmarshalEncryptedData s = .ok (⟨c!"HNVSD", 999, 1, none⟩, some e.data)) ∧
      (∃ s, (newExtractor b).extract.1.findSegment b!"HNHBK" = some s ∧
        unmarshalMsgHeader s = .ok ⟨⟨c!"HNHBK", m.header.position, 3, none⟩, some b.length, some m.header.hbciVersion,
          if m.header.dialogId = [] then none else some m.header.dialogId, some m.header.number, none⟩) := by
  obtain ⟨⟨ds, hds, hdata⟩, _, e1, e2, e3, hk', e4, e5⟩ := C20_encrypt h
  have hpd : PlainData e.data := by rw [hdata]; exact flatten_plainData hds
  obtain ⟨_, _, _, _, _, _, hsize⟩ := C18_size e3 hm (by rw [e1]; exact hs.1) (by rw [e1]; exact hs.2) hl
  obtain ⟨bs, h1, h2, h3, h4⟩ := C19_transmitted e3 hm
  have hkey : hk' = encryptionHeader m.version p.securityFn p.clientSystemId p.key.keyName now := by
    unfold BasicMessage.encrypt at h
    cases hc : m.content with
    | none => rw [hc] at h; simp at h
    | some segs =>
      rw [hc] at h
      simp only at h
      cases x1 : marshalSegOpt m.sigBegin <;> cases x2 : marshalSegs segs <;> cases x3 : marshalSegOpt m.sigEnd <;>
        rw [x1, x2, x3] at h <;> simp only [Outcome.bind, Outcome.map'] at h <;> try cases h
      split at h
      · simp only [Outcome.ok.injEq] at h
        subst h
        simp only [transmitted] at e5
        simp at e5
        exact e5.1.symm
      · simp at h
      · simp at h
  have hT : transmitted m' = [m'.header.seg, hk', newSegment 999 c!"HNVSD" 1 [some (.binary e.data (-1))], m.end_.seg] := by
    have : transmitted m' = m'.header.seg :: (transmitted m').tail := by unfold transmitted; simp
    rw [this, h3, e5]
    rfl
  have hh : m'.header = { m.header with size := b.length } := by rw [h4, hsize, e1]
  have hus : ∀ s ∈ transmitted m', Undisturbing s := by
    intro s hs
    rw [hT] at hs
    simp only [List.mem_cons, List.not_mem_nil, or_false] at hs
    rcases hs with rfl | rfl | rfl | rfl
    · rw [hh]; exact msgHeader_undisturbing hd (by intro d n hx; simp only at hx; rw [hr] at hx; cases hx)
    · rw [hkey]; exact encryptionHeader_undisturbing hk now
    · exact encryptedData_undisturbing hpd
    · exact msgEnd_undisturbing _
  have hbl : bs.flatten.length < 2 ^ 63 := by rw [← h2]; omega
  obtain ⟨g1, _⟩ := C15_structure hus h1 hbl
  rw [← h2] at g1
  have hseg := extract_segments g1
  rw [hT] at h1
  obtain ⟨b0, b1, b2, b3, rfl⟩ : ∃ b0 b1 b2 b3, bs = [b0, b1, b2, b3] := by
    have := congrArg List.length h1
    simp at this
    match bs, this with
    | [b0, b1, b2, b3], _ => exact ⟨b0, b1, b2, b3, rfl⟩
  simp only [List.map_cons, List.map_nil, List.cons.injEq, and_true] at h1
  obtain ⟨s0, s1, s2, s3⟩ := h1
  have hlen : b0.length ≤ b.length ∧ b2.length ≤ b.length := by rw [h2]; simp; omega
  obtain ⟨r0, hr0⟩ := seg_prefix s0 (hus _ (by rw [hT]; simp))
  obtain ⟨r1, hr1⟩ := seg_prefix s1 (hus _ (by rw [hT]; simp))
  obtain ⟨r2, hr2⟩ := seg_prefix s2 (hus _ (by rw [hT]; simp))
  have hid : ∀ hd : Header, ∃ r, headerBytes hd = enc (escape hd.id) ++ r := fun hd =>
    ⟨_, by unfold headerBytes; rw [List.append_assoc, List.append_assoc]⟩
  obtain ⟨t0, ht0⟩ := hid m'.header.seg.header
  obtain ⟨t1, ht1⟩ := hid hk'.header
  obtain ⟨t2, ht2⟩ := hid (newSegment 999 c!"HNVSD" 1 [some (.binary e.data (-1))]).header
  have p0 : ∃ r, b0 = b!"HNHBK" ++ r := ⟨_, by rw [hr0, ht0, List.append_assoc]; rfl⟩
  have p1 : ∃ r, b1 = b!"HNVSK" ++ r := ⟨_, by rw [hr1, ht1, List.append_assoc, e4]; rfl⟩
  have p2 : ∃ r, b2 = b!"HNVSD" ++ r := ⟨_, by rw [hr2, ht2, List.append_assoc]; rfl⟩
  obtain ⟨q0, hq0⟩ := p0
  obtain ⟨q1, hq1⟩ := p1
  obtain ⟨q2, hq2⟩ := p2
  refine ⟨_, g1, rfl, ⟨b2, ?_, ?_⟩, ⟨b0, ?_, ?_⟩⟩
  · unfold Extractor.findSegment
    have f0 : (b!"HNVSD").isPrefixOf b0 = false := by rw [hq0]; rfl
    have f1 : (b!"HNVSD").isPrefixOf b1 = false := by rw [hq1]; rfl
    have f2 : (b!"HNVSD").isPrefixOf b2 = true := by rw [hq2]; rfl
    rw [hseg]
    simp only [List.find?, f0, f1, f2]
  · exact read_encryptedData hpd s2 (by omega)
  · unfold Extractor.findSegment
    have f0 : (b!"HNHBK").isPrefixOf b0 = true := by rw [hq0]; rfl
    rw [hseg]
    simp only [List.find?, f0]
  · have := read_msgHeader (h := m'.header) (b := b0) (by rw [hh]; exact hd) (by rw [hh]; exact hr)
      (by rw [hh]; exact ⟨hi.1, ⟨by simp only; omega, by simp only; omega⟩, hi.2.1, hi.2.2⟩) s0 (by omega)
    rw [this, hh]

/-- The provider of the examples. -/
def sampleProvider : CryptoProvider :=
  ⟨⟨c!"12345", ⟨280, c!"10000000", c!"user+1", c!"V", 0, 0⟩⟩, c!"0", c!"999"⟩

set_option maxRecDepth 20000 in
/-- Non-vacuity of C20: the message above, encrypted. -/
example : ∃ e b m', sampleMessage.encrypt sampleProvider ⟨2020, 2, 29, 23, 59, 58, 0⟩ = .ok e ∧
    e.msg.marshal = .ok (b, m') ∧ e.data = b!"HKEND:3:1+4711'" ∧ PlainKey sampleProvider ∧
    PlainText sampleMessage.header.dialogId ∧ b.length < 10 ^ 12 := by
  refine ⟨_, _, _, rfl, rfl, rfl, ⟨?_, ?_, ?_, ?_⟩, ?_, ?_⟩
  · exact plain_literal (by decide)
  · exact plain_literal (by decide)
  · exact ⟨by decide, not_malformed_comma (by decide), by decide, by decide⟩
  · exact plain_literal (by decide)
  · exact plain_literal (by decide)
  · decide

/-! ## C66: signing -/

/-- C66: signing with PIN/TAN puts HNSHK in front and HNSHA behind the contents and
numbers all segments.  Nothing else changes. -/
theorem C66_sign {m m' : BasicMessage} {p : SignatureProvider} {now : Time.Civil} (h : m.sign p now = .ok m') :
    ∃ hk ha, transmitted m' = ([m.header.seg, hk] ++ (m.content.getD []).filterMap id ++ [ha, m.end_.seg]).mapIdx
        (fun i s => s.setPosition (i + 1)) ∧
      hk.header.id = c!"HNSHK" ∧ ha.header.id = c!"HNSHA" ∧
      (match m.version with
        | .hbci220 => hk.header.version = 3 ∧ ha.header.version = 1
        | .fints300 => hk.header.version = 4 ∧ ha.header.version = 2) ∧
      -- the signature end: control reference, no signature, PIN
      ha.elements.map DE.marshalOpt = [marshalText p.controlRef, .ok [], (DE.group 2 [some (.alnum p.key.pin 99), none]).marshal] ∧
      -- the signature header: security profile and function, and the same control reference
      (match m.version with
        | .hbci220 => (hk.elements.map DE.marshalOpt).take 2 = [marshalText p.securityFn, marshalText p.controlRef]
        | .fints300 => (hk.elements.map DE.marshalOpt).take 3 =
            [.ok (if p.securityFn = c!"999" then b!"PIN:1" else b!"PIN:2"), marshalText p.securityFn,
              marshalText p.controlRef]) ∧
      -- the last element but one: the name of the key
      (hk.elements.map DE.marshalOpt).dropLast.getLast? = some (DE.group 5
        [some (.group 2 [some (.countryCode p.key.keyName.country 3), some (.alnum p.key.keyName.bankId 30)]),
         some (.identification p.key.keyName.userId 30), some (.alnum p.key.keyName.keyType 1),
         some (.number p.key.keyName.number 3), some (.number p.key.keyName.version 3)]).marshal := by
  unfold BasicMessage.sign at h
  cases hc : m.content with
  | none => rw [hc] at h; simp at h
  | some segs =>
    rw [hc] at h
    simp only at h
    have hp := C19_positions h
    refine ⟨signatureHeader m.version p.securityFn p.controlRef p.clientSystemId p.key.keyName now,
      signatureEnd m.version p.controlRef p.key.pin, ?_, ?_, ?_, ?_, ?_, ?_, ?_⟩
    · rw [hp]
      congr 1
      simp [transmitted]
    all_goals cases m.version
    all_goals try rfl
    all_goals try exact ⟨rfl, rfl⟩
    all_goals
      simp only [signatureHeader, newSegment, List.map_cons, DE.marshalOpt, List.take_succ_cons, List.take_zero,
        securityProfile, profileFor, DE.marshal, List.cons.injEq, and_true]
      by_cases hf : p.securityFn = c!"999"
      · rw [if_pos hf, if_pos hf]; rfl
      · rw [if_neg hf, if_neg hf]; rfl

/-- The signed message of the examples. -/
def sampleSigner : SignatureProvider := ⟨sampleProvider.key, c!"0", c!"910", c!"4242"⟩

set_option maxRecDepth 20000 in
/-- Non-vacuity of C66 and of the wire theorem of C19. -/
example : ∃ m1 m2, sampleMessage.sign sampleSigner ⟨2020, 2, 29, 23, 59, 58, 0⟩ = .ok m1 ∧ m1.cache = [] ∧
    m1.marshal = .ok
      (b!"HNHBK:1:3+000000000180+300+4711+2'HNSHK:2:4+PIN:2+910+4242+1+1+1::0+0+1:20200229:235958+1:999:1+6:10:16+280:10000000:user?+1:V:0:0'HKEND:3:1+4711'HNSHA:4:2+4242++12345'HNHBS:5:1+2'", m2) ∧
    (∀ s ∈ transmitted m2, Undisturbing s) := by
  refine ⟨_, _, rfl, rfl, rfl, ?_⟩
  have l : ∀ {s : Str}, s.all Char.isAlphanum = true → PlainText s := plain_literal
  have hu : PlainText c!"user+1" := ⟨by decide, not_malformed_comma (by decide), by decide, by decide⟩
  intro s hs
  simp only [transmitted, sampleMessage, sampleSigner, sampleProvider, positionOpt, positionAll, Option.toList_some,
    Option.getD_some, List.cons_append, List.nil_append, signatureHeader, signatureEnd, newSegment,
    Seg.setPosition, Header.setPosition, newHeader, List.filterMap_cons, List.filterMap_nil, id, List.mem_cons,
    List.not_mem_nil, or_false] at hs
  rcases hs with rfl | rfl | rfl | rfl | rfl
  · exact msgHeader_undisturbing (l (by decide)) (by intro d n h; cases h)
  · refine undisturbing_of_plain (harmless_literal (s := c!"HNSHK") (by decide)) (plainAll_iff.1 ?_)
    simp only [securityId, securityDate, hashAlgorithm, signatureAlgorithm, keyNameDE, bankIdentification,
      securityProfile, PlainAll, PlainOpt, Plain, and_true, true_and]
    exact ⟨l (by decide), l (by decide), l (by decide), l (by decide), l (by decide), ⟨l (by decide), l (by decide)⟩,
      l (by decide), ⟨l (by decide), l (by decide), l (by decide)⟩, ⟨l (by decide), l (by decide), l (by decide)⟩,
      l (by decide), hu, l (by decide)⟩
  · refine undisturbing_of_plain (harmless_literal (s := c!"HKEND") (by decide)) (plainAll_iff.1 ?_)
    simp only [PlainAll, PlainOpt, Plain, and_true]
    exact l (by decide)
  · refine undisturbing_of_plain (harmless_literal (s := c!"HNSHA") (by decide)) (plainAll_iff.1 ?_)
    simp only [pinTanDE, if_true, PlainAll, PlainOpt, Plain, and_true, true_and]
    exact ⟨l (by decide), l (by decide)⟩
  · exact msgEnd_undisturbing _

end Verif.Message
